/-
C60: which exceptions the parsers can raise.

`Err.convert` is `ConvertException`; `value`, `overflow`, `key`, `index` and `type` are Python's `ValueError`, `OverflowError`, `KeyError`,
`IndexError` and `TypeError`.
-/
import Verif.Lemmas.KeyForms
import Verif.Spec.Errors

namespace Epc
open Spec Re

theorem Spec.RaisesOnly.of_tame {α : Type} {r : Except Err α} (h : Tame r) : RaisesOnly [.convert, .value, .overflow] r := by
  intro e he
  rcases h e he with rfl | rfl | rfl <;> decide

/-- Constructors: nothing but `ConvertException`, `ValueError` and `OverflowError`. -/
theorem C60_constructor (c : Cls) (u : Str) : RaisesOnly [.convert, .value, .overflow] (c.new u) := .of_tame (c.new_tame u)

/-- Constructors of the classes without a free-form serial: nothing but `ConvertException`. -/
theorem C60_constructor_convert (c : Cls) (u : Str)
    (hc : c ∈ [Cls.adi, .bic, .cpi, .gid, .gsin, .gsrn, .gsrnp, .imovn, .pgln, .sgcn, .sscc, .usdod]) : RaisesOnly [.convert] (c.new u) := by
  have key : ∀ {α : Type} {r : Except Err α} {f : α → Scheme}, (∀ e, r = .error e → e = .convert) → RaisesOnly [.convert] (r.map f) := by
    intro α r f h e he
    cases r with
    | ok a => cases he
    | error e' => cases he; rw [h _ rfl]; decide
  cases c
  case adi => exact key fun _ => ADI.new_error
  case bic => exact key fun _ => BIC.new_error
  case cpi => exact key fun _ => CPI.new_error
  case gid => exact key fun _ => GID.new_error
  case gsin => exact key fun _ => GSIN.new_error
  case gsrn => exact key fun _ => GSRN.new_error
  case gsrnp => exact key fun _ => GSRNP.new_error
  case imovn => exact key fun _ => IMOVN.new_error
  case pgln => exact key fun _ => PGLN.new_error
  case sgcn => exact key fun _ => SGCN.new_error
  case sscc => exact key fun _ => SSCC.new_error
  case usdod => exact key fun _ => USDOD.new_error
  all_goals exact absurd hc (by decide)

/-- For the other classes both `ValueError` and `OverflowError` do occur. -/
theorem C60_constructor_other (c : Cls)
    (hc : c ∉ [Cls.adi, .bic, .cpi, .gid, .gsin, .gsrn, .gsrnp, .imovn, .pgln, .sgcn, .sscc, .usdod]) :
    (∃ u, c.new u = .error .value) ∧ ∃ u, c.new u = .error .overflow := by
  cases c
  case gdti => exact ⟨⟨py "urn:epc:id:gdti:0614141.12345.%2Fxyz", by decide +kernel⟩, ⟨py "urn:epc:id:gdti:0614141.12345.%2F0000000", by decide +kernel⟩⟩
  case giai => exact ⟨⟨py "urn:epc:id:giai:0614141.%2Fxyz", by decide +kernel⟩, ⟨py "urn:epc:id:giai:0614141.%2F0000000", by decide +kernel⟩⟩
  case ginc => exact ⟨⟨py "urn:epc:id:ginc:0614141.%2Fxyz", by decide +kernel⟩, ⟨py "urn:epc:id:ginc:0614141.%2F0000000", by decide +kernel⟩⟩
  case grai => exact ⟨⟨py "urn:epc:id:grai:0614141.12345.%2Fxyz", by decide +kernel⟩, ⟨py "urn:epc:id:grai:0614141.12345.%2F0000000", by decide +kernel⟩⟩
  case itip => exact ⟨⟨py "urn:epc:id:itip:0614141.112345.01.02.%2Fxyz", by decide +kernel⟩, ⟨py "urn:epc:id:itip:0614141.112345.01.02.%2F0000000", by decide +kernel⟩⟩
  case lgtin => exact ⟨⟨py "urn:epc:class:lgtin:0614141.112345.%2Fxyz", by decide +kernel⟩, ⟨py "urn:epc:class:lgtin:0614141.112345.%2F0000000", by decide +kernel⟩⟩
  case sgln => exact ⟨⟨py "urn:epc:id:sgln:0614141.12345.%2Fxyz", by decide +kernel⟩, ⟨py "urn:epc:id:sgln:0614141.12345.%2F0000000", by decide +kernel⟩⟩
  case sgtin => exact ⟨⟨py "urn:epc:id:sgtin:0614141.112345.%2Fxyz", by decide +kernel⟩, ⟨py "urn:epc:id:sgtin:0614141.112345.%2F0000000", by decide +kernel⟩⟩
  case upui => exact ⟨⟨py "urn:epc:id:upui:0614141.112345.%2Fxyz", by decide +kernel⟩, ⟨py "urn:epc:id:upui:0614141.112345.%2F0000000", by decide +kernel⟩⟩
  all_goals exact absurd (by decide) hc

/-- `from_tag_uri`. -/
theorem C60_tag_uri (c : Cls) (t : Str) (hc : c.isTagEncodable = true) : RaisesOnly [.convert, .value, .overflow] (c.fromTagUri t) :=
  .of_tame (Cls.fromTagUri_tame hc t)

/-- `from_gs1_element_string`. -/
theorem C60_element_string (c : Cls) (s : Str) (n : Int) (hc : c.isGs1Element = true) :
    RaisesOnly [.convert, .value, .overflow] (c.fromGs1ElementString s n) :=
  .of_tame (Cls.fromElem_tame hc s n)

/-- `SGTIN.from_gtin_plus_serial`. -/
theorem C60_gtin_plus_serial (g s : Str) (n : Int) : RaisesOnly [.convert, .value, .overflow] (SGTIN.fromGtinPlusSerial g s n) := by
  refine .of_tame ?_
  unfold SGTIN.fromGtinPlusSerial
  dsimp only
  have hl : 0 < (zfill 14 g).length := by
    unfold zfill
    split
    · exact Nat.succ_pos _
    · exact Nat.succ_pos _
    · rw [length_padLeft]
      omega
  have : getIdx (zfill 14 g) 0 = .ok (zfill 14 g)[0] := by
    unfold getIdx
    rw [List.getElem?_eq_getElem hl]
  rw [this, ok_bind]
  exact SGTIN.new_tame _

/-- `from_binary`: `KeyError` exactly if the first eight characters are none of the headers of the class. -/
theorem C60_binary (c : Cls) (b : Str) (hc : c.isTagEncodable = true) :
    RaisesOnly [.convert, .value, .overflow, .key] (c.fromBinary b) ∧ (c.fromBinary b = .error .key ↔ b.take 8 ∉ c.binaryHeaders) := by
  by_cases h : b.take 8 ∈ c.binaryHeaders
  · have ht := Cls.fromBinary_tame h
    refine ⟨fun e he => ?_, fun he => ?_, fun hn => absurd h hn⟩
    · rcases ht e he with rfl | rfl | rfl <;> decide
    · rcases ht _ he with h | h | h <;> cases h
  · have hk := Cls.fromBinary_key hc h
    refine ⟨fun e he => ?_, fun _ => h, fun _ => hk⟩
    rw [hk] at he
    cases he
    decide

/-- `binary_to_tag_encodable`, `hex_to_tag_encodable` and `base64_to_tag_encodable`. -/
theorem C60_encoded (s : Str) : RaisesOnly [.convert, .value, .overflow] (binaryToTagEncodable s) ∧
    RaisesOnly [.convert, .value, .overflow] (hexToTagEncodable s) ∧ RaisesOnly [.convert, .value, .overflow] (base64ToTagEncodable s) :=
  ⟨.of_tame (binaryTo_tame s), .of_tame (hexTo_tame s), .of_tame (base64To_tame s)⟩

/-- `gs1_element_string_to_gs1_element`. -/
theorem C60_element_string_parser (s : Str) (n : Int) : RaisesOnly [.convert, .value, .overflow] (gs1ElementStringToGs1Element s n) :=
  .of_tame (elemTo_tame s n)

/-- `epc_pure_identity_to_scheme` and `tag_uri_to_tag_encodable`: `IndexError` exactly if there are fewer than three colons. -/
theorem C60_uri_parsers (u : Str) :
    (RaisesOnly [.convert, .value, .overflow, .index] (epcPureIdentityToScheme u) ∧
      (epcPureIdentityToScheme u = .error .index ↔ u.count ':' < 3)) ∧
    (RaisesOnly [.convert, .value, .overflow, .index] (tagUriToTagEncodable u) ∧
      (tagUriToTagEncodable u = .error .index ↔ u.count ':' < 3)) := by
  have key : ∀ {α : Type} {r : Except Err α}, (3 ≤ u.count ':' → Tame r) → (u.count ':' < 3 → r = .error .index) →
      RaisesOnly [.convert, .value, .overflow, .index] r ∧ (r = .error .index ↔ u.count ':' < 3) := by
    intro α r h1 h2
    by_cases h : u.count ':' < 3
    · refine ⟨fun e he => ?_, fun _ => h, fun _ => h2 h⟩
      rw [h2 h] at he
      cases he
      decide
    · have ht := h1 (by omega)
      refine ⟨fun e he => ?_, fun he => ?_, fun hn => absurd hn h⟩
      · rcases ht e he with rfl | rfl | rfl <;> decide
      · rcases ht _ he with h | h | h <;> cases h
  refine ⟨key scheme_tame (C38_no_name u), key tagUriTo_tame fun h => ?_⟩
  have hl : (split ':' u).length = u.count ':' + 1 := length_split ':' u
  have : (split ':' u)[3]? = Option.none := List.getElem?_eq_none (by omega)
  unfold tagUriToTagEncodable getPart
  rw [this]
  rfl

/-- `get_gs1_key` without `gtin_type`, for any string whatsoever: nothing but `ConvertException`, `ValueError` and `OverflowError`. -/
theorem C60_get_gs1_key (s : Str) (n : Option Int) : RaisesOnly [.convert, .value, .overflow] (getGs1Key s n Option.none) := by
  refine .of_tame ?_
  unfold getGs1Key
  split
  · exact Tame.convert
  · rename_i r hr
    refine Tame.bind (gs1KeySource_tame hr) fun x _ => ?_
    by_cases hk : x.cls.isGs1Keyed = true
    · unfold requireCls
      rw [if_pos hk, ok_bind]
      cases x <;> first | exact Tame.ok _ | exact Bool.noConfusion hk
    · unfold requireCls
      rw [if_neg hk]
      exact Tame.convert

/-- `get_gs1_key` with `gtin_type`: also `TypeError`, and that exactly if the source is read as an object with a GS1 key that is not a GTIN. -/
theorem C60_get_gs1_key_typed (s : Str) (n : Option Int) (t : GtinType) :
    RaisesOnly [.convert, .value, .overflow, .type] (getGs1Key s n (some t)) ∧
    (getGs1Key s n (some t) = .error .type ↔
      ∃ x, gs1KeySource s n = some (.ok x) ∧ x.cls.isGs1Keyed = true ∧ x.cls ≠ .sgtin ∧ x.cls ≠ .lgtin) := by
  cases h : gs1KeySource s n with
  | none =>
    rw [key_of_no_source h]
    refine ⟨fun e he => (by cases he; decide), fun he => (by cases he), fun ⟨x, hx, _⟩ => (by cases hx)⟩
  | some r =>
    have ht := gs1KeySource_tame h
    cases r with
    | error e =>
      rw [key_of_source_error h]
      refine ⟨fun e' he => ?_, fun he => ?_, fun ⟨x, hx, _⟩ => by cases hx⟩
      · cases he
        rcases ht e rfl with rfl | rfl | rfl <;> decide
      · cases he
        rcases ht .type rfl with h | h | h <;> cases h
    | ok x =>
      rw [key_of_source h]
      have hg : ∀ {α : Type} {r : Except Err α}, (∀ e, r = .error e → e = .convert) →
          (RaisesOnly [.convert, .value, .overflow, .type] r ∧ ¬ r = .error .type) := by
        intro α r h
        refine ⟨fun e he => by rw [h e he]; decide, fun he => by cases h _ he⟩
      have hs : ∀ (y : SGTIN) e, y.gs1Key t = .error e → e = .convert := by
        intro y e he
        unfold SGTIN.gs1Key SGTIN.gtin at he
        split at he <;> cases he
        rfl
      have hl : ∀ (y : LGTIN) e, y.gs1Key t = .error e → e = .convert := by
        intro y e he
        unfold LGTIN.gs1Key LGTIN.gtin at he
        split at he <;> cases he
        rfl
      have hty : ∀ y : Scheme, (∃ x', some (Except.ok (ε := Err) y) = some (.ok x') ∧ x'.cls.isGs1Keyed = true ∧ x'.cls ≠ .sgtin ∧ x'.cls ≠ .lgtin) ↔
          (y.cls.isGs1Keyed = true ∧ y.cls ≠ .sgtin ∧ y.cls ≠ .lgtin) := by
        intro y
        constructor
        · rintro ⟨x', e, h⟩; cases e; exact h
        · intro h; exact ⟨y, rfl, h⟩
      rw [hty x]
      by_cases hk : x.cls.isGs1Keyed = true
      · rw [if_pos hk]
        cases x <;> first
          | exact Bool.noConfusion hk
          | exact ⟨(hg (hs _)).1, fun h => absurd h (hg (hs _)).2, fun h => absurd rfl h.2.1⟩
          | exact ⟨(hg (hl _)).1, fun h => absurd h (hg (hl _)).2, fun h => absurd rfl h.2.2⟩
          | exact ⟨fun e he => (by cases he; decide), fun _ => ⟨rfl, (fun h => Cls.noConfusion h), (fun h => Cls.noConfusion h)⟩, fun _ => rfl⟩
      · rw [if_neg hk]
        exact ⟨fun e he => (by cases he; decide), fun he => (by cases he), fun h => absurd h.1 hk⟩

/-- The docstring of `get_gs1_key` names `ConvertException` only; `ValueError` and `OverflowError` do occur. -/
theorem C60_get_gs1_key_documentation_incomplete :
    getGs1Key (py "urn:epc:id:sgtin:0614141.112345.%2Fxyz") Option.none Option.none = .error .value ∧
    getGs1Key (py "urn:epc:id:sgtin:0614141.112345.%2F0000000") Option.none Option.none = .error .overflow := by
  constructor <;> decide +kernel

example : getGs1Key (py "anything") Option.none Option.none = .error .convert := by decide +kernel
example : getGs1Key (py "urn:epc:id:sscc:0614141.1234567890") Option.none (some .gtin13) = .error .type := by decide +kernel
example : SGTIN.fromBinary (py "00110000") = .error .convert ∧ SGTIN.fromBinary (py "00110001") = .error .key := by decide +kernel
example : epcPureIdentityToScheme (py "urn:epc") = .error .index := by decide +kernel

end Epc
