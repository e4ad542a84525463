/-
C61: every object that a parser returns is the object of its own pure identity URI, and `get_gs1_key` answers exactly for the strings that
denote an object with a GS1 key.
-/
import Verif.Lemmas.KeyForms
import Verif.Spec.Denotes
import Verif.Props.C40

namespace Epc
open Spec Re

theorem hexHeaders_list (s : Str) : hexHeaders.contains s = true ↔ s ∈ hexHeaderList := by
  have h1 : ∀ t ∈ hexHeaders, t ∈ hexHeaderList := by decide +kernel
  have h2 : ∀ t ∈ hexHeaderList, t ∈ hexHeaders := by decide +kernel
  rw [List.contains_iff_mem]
  exact ⟨h1 s, h2 s⟩

/-- Objects read from a tag URI, a binary encoding or a GS1 element string are the objects of their pure identity URIs. -/
theorem C61_object (c : Cls) (x : Scheme) :
    (∀ t, c.fromTagUri t = .ok x → c.new x.epcUri = .ok x ∧ x.cls = c) ∧
    (∀ b, c.fromBinary b = .ok x → c.new x.epcUri = .ok x ∧ x.cls = c) ∧
    (∀ s n, c.fromGs1ElementString s n = .ok x → c.new x.epcUri = .ok x ∧ x.cls = c) :=
  ⟨fun _ => Cls.fromTagUri_made, fun _ => Cls.fromBinary_made, fun _ _ => Cls.fromElem_made⟩

/-- Whatever the notation, `x` is the object of its pure identity URI, and its class is `c`. -/
theorem C61_denotes (c : Cls) (x : Scheme) (s : Str) (n : Option Int) (h : Denotes c x s n) : c.new x.epcUri = .ok x ∧ x.cls = c := by
  have hn : ∀ {u}, c.new u = .ok x → c.new x.epcUri = .ok x ∧ x.cls = c := by
    intro u h
    obtain ⟨h1, h2, -⟩ := Cls.new_facts h
    rw [h2]
    exact ⟨h, h1⟩
  rcases h with h | ⟨m, -, -, h⟩ | h | ⟨b, -, h⟩ | ⟨-, h⟩ | ⟨-, b, -, -, h⟩
  · exact hn h
  · exact Cls.fromElem_made h
  · exact Cls.fromTagUri_made h
  · exact hn h
  · exact Cls.fromBinary_made h
  · exact Cls.fromBinary_made h

theorem source_denotes {c : Cls} {x : Scheme} {s : Str} {n : Option Int} (hk : c.isGs1Keyed = true) (h : Denotes c x s n) (ty : Option GtinType) :
    getGs1Key s n ty = x.gs1Key ty := by
  obtain ⟨-, hc⟩ := C61_denotes c x s n h
  have hk' : x.cls.isGs1Keyed = true := by rw [hc]; exact hk
  rcases h with h | ⟨m, rfl, hm, h⟩ | h | ⟨b, rfl, h⟩ | ⟨h8, h⟩ | ⟨h2, b, hb, h8, h⟩
  · exact C40_uri c s x n ty h hk
  · obtain ⟨r, hr, hf⟩ := fromElem_match h
    have e := source_elem hm (gs1Elem_iff.2 ⟨c, r, hr, hf⟩)
    rw [elemTo_ok.2 ⟨c, h⟩] at e
    rw [key_of_source e, if_pos hk']
  · exact C40_tag_uri c s x n ty h hk
  · obtain ⟨r, rfl, hm⟩ := idpat_lang hk h
    exact getGs1Key_idpat hk h hm n ty
  · have e := source_binary h8 rfl n
    rw [h] at e
    rw [key_of_source e, if_pos hk']
  · have e := source_hex_form ((hexHeaders_list _).2 h2) hb h8 n
    rw [h] at e
    rw [key_of_source e, if_pos hk']

theorem denotes_of_source {x : Scheme} {s : Str} {n : Option Int} (h : gs1KeySource s n = some (.ok x)) : ∃ c, Denotes c x s n := by
  unfold gs1KeySource at h
  split at h
  · obtain ⟨c, hc⟩ := scheme_ok_iff.1 (Option.some.inj h)
    exact ⟨c, .inl hc⟩
  · split at h
    · rename_i hm
      obtain ⟨c, hc⟩ := elemTo_ok.1 (Option.some.inj h)
      cases n with
      | none => exact absurd rfl hm.2
      | some m => exact ⟨c, .inr (.inl ⟨m, rfl, hm.2, hc⟩)⟩
    · split at h
      · have h := Option.some.inj h
        unfold tagUriToTagEncodable at h
        obtain ⟨p, -, h⟩ := bind_ok_iff.1 h
        obtain ⟨i, -, h⟩ := bind_ok_iff.1 h
        split at h
        · cases h
        · exact ⟨_, .inr (.inr (.inl h))⟩
      · split at h
        · rename_i hm
          obtain ⟨c, b, -, hs, hc⟩ := idpatTo_ok (Option.some.inj h) hm
          exact ⟨c, .inr (.inr (.inr (.inl ⟨b, hs, hc⟩)))⟩
        · have hb : ∀ {b}, binaryToTagEncodable b = .ok x → ∃ c : Cls, b.take 8 ∈ c.binaryHeaders ∧ c.fromBinary b = .ok x := by
            intro b h
            unfold binaryToTagEncodable at h
            split at h
            · cases h
            · rename_i c hl
              exact ⟨c, binaryHeader_table hl, h⟩
          split at h
          · obtain ⟨c, h1, h2⟩ := hb (Option.some.inj h)
            exact ⟨c, .inr (.inr (.inr (.inr (.inl ⟨h1, h2⟩))))⟩
          · split at h
            · rename_i hh
              have h := Option.some.inj h
              unfold hexToTagEncodable at h
              obtain ⟨b, hb', h⟩ := bind_ok_iff.1 h
              obtain ⟨c, h1, h2⟩ := hb h
              exact ⟨c, .inr (.inr (.inr (.inr (.inr ⟨(hexHeaders_list _).1 hh, b, hb', h1, h2⟩))))⟩
            · cases h

/-- `get_gs1_key` returns `k` exactly if the string denotes an object with a GS1 key, and the key of that object is `k`. -/
theorem C61_get_gs1_key (s k : Str) (n : Option Int) (ty : Option GtinType) :
    getGs1Key s n ty = .ok k ↔ ∃ c x, c.isGs1Keyed = true ∧ Denotes c x s n ∧ x.gs1Key ty = .ok k := by
  constructor
  · intro h
    cases e : gs1KeySource s n with
    | none => rw [key_of_no_source e] at h; cases h
    | some r =>
      cases r with
      | error e' => rw [key_of_source_error e] at h; cases h
      | ok x =>
        rw [key_of_source e] at h
        obtain ⟨c, hc⟩ := denotes_of_source e
        have hx := (C61_denotes c x s n hc).2
        split at h
        · rename_i hk
          exact ⟨c, x, hx ▸ hk, hc, h⟩
        · cases h
  · rintro ⟨c, x, hk, hd, h⟩
    rw [source_denotes hk hd ty, h]

/-- A string denotes at most one key: two objects with GS1 keys that the same string denotes have the same key. -/
theorem C61_key_unique (c c' : Cls) (x x' : Scheme) (s : Str) (n : Option Int) (ty : Option GtinType) (hk : c.isGs1Keyed = true)
    (hk' : c'.isGs1Keyed = true) (h : Denotes c x s n) (h' : Denotes c' x' s n) : x.gs1Key ty = x'.gs1Key ty := by
  rw [← source_denotes hk h ty, ← source_denotes hk' h' ty]

/-- Where the code retries a pattern with the dummy serial `0`, the pattern was itself acceptable: this branch never changes a result. -/
theorem C61_dummy_serial_useless (c : Cls) (u : Str) (x : Scheme) (hk : c.isGs1Keyed = true) (ho : oneEscapeAllowed.contains c.name = true)
    (h : c.new (subFinalStar u) = .ok x) : Rx.epcUri.fullmatch u = true :=
  dummy_dead hk ho h

/-- All six notations occur. -/
example : Denotes .sgtin (.sgtin ⟨py "urn:epc:id:sgtin:0614141.812345.6789", py "0614141", py "812345", py "6789", py "80614141123458"⟩)
    (py "urn:epc:id:sgtin:0614141.812345.6789") Option.none := .inl (by decide +kernel)
example : getGs1Key (py "urn:epc:id:sgtin:0614141.812345.6789") Option.none Option.none = .ok (py "80614141123458") := by decide +kernel
example : getGs1Key (py "(01)80614141123458(21)6789") (some 7) Option.none = .ok (py "80614141123458") := by decide +kernel
example : getGs1Key (py "urn:epc:tag:sgtin-96:3.0614141.812345.6789") Option.none Option.none = .ok (py "80614141123458") := by decide +kernel
example : getGs1Key (py "urn:epc:idpat:sgtin:0614141.812345.*") Option.none Option.none = .ok (py "80614141123458") := by decide +kernel
example : getGs1Key (py "3074257BF7194E4000001A85") Option.none Option.none = .ok (py "80614141123458") := by decide +kernel
example : oneEscapeAllowed.contains (Cls.name .sgtin) = true ∧
    (Cls.new .sgtin (subFinalStar (py "urn:epc:id:sgtin:0614141.812345.*"))).toOption.isSome = true := by decide +kernel

end Epc
