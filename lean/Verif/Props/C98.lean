/-
C98: members of other enumerations and plain numbers as arguments, executed from the source.

As in C97 nothing in the statements refers to the model of the other claims: objects are made and methods called by executing /repo/epcpy.
`Spec/Unusual` says what the calls return; `codings c` and `members e` (`Spec/Program`) are the members of the enumerations of the source.
-/
import Verif.Lemmas.Unusual
import Verif.Refine.Numbers
import Verif.Props.C89
import Verif.Props.C90
import Verif.Props.C97
set_option linter.unusedVariables false

namespace Epc.Src
open Spec Grammar

/-- The members of the enumerations of filter values are numbers below 64. -/
theorem C98_filters (d : Cl) (e : Cl) (v : Val) (h : filterEnum d = some e) (hv : v ∈ members e) : ∃ f : Fin 64, IsFilter f v := by
  have wide : ∀ {n : Nat}, n ≤ 64 → (members e).map memberValue = (List.range n).map (fun k => some (filterStr k)) → ∃ f : Fin 64, IsFilter f v := by
    intro n hn hm
    obtain ⟨f, hf⟩ := (isFilter_of hm).1 v hv
    exact ⟨⟨f, Nat.lt_of_lt_of_le f.2 hn⟩, hf⟩
  unfold filterEnum at h
  split at h <;> cases h <;> first | exact wide (n := 8) (by decide) rfl | exact wide (n := 16) (by decide) rfl | exact wide (n := 64) (by decide) rfl

/-- With a coding scheme of another class `tag_uri` returns a text that names it, and `binary`, `hex` and `base64` raise KeyError. -/
theorem C98_coding (c d : Cls) (hc : c.isTagEncodable = true) (hd : d ≠ c) (u : Str) (o : Val) (h : construct (clOf c) [.str u] = .ok o)
    (s : Val) (hs : s ∈ codings (clOf d)) (name : Str) (hn : read s .value = .ok (.str name)) (f : Fin 64) (v : Val) (hv : IsFilter f v) :
    ForeignCall c o u s name f v := by
  obtain ⟨x, hx, rfl⟩ := constructed h
  obtain ⟨cs, rfl, rfl⟩ := any_coding hs
  rw [any_value hn]
  cases c <;> first | (cases hc; done) | skip
  all_goals obtain ⟨y, hy, rfl⟩ := map_ok_iff.1 hx
  · exact foreign_ADI hy hd hv
  · exact foreign_CPI hy hd hv
  · exact foreign_GDTI hy hd hv
  · exact foreign_GIAI hy hd hv
  · exact foreign_GID hy hd hv
  · exact foreign_GRAI hy hd hv
  · exact foreign_GSRN hy hd hv
  · exact foreign_GSRNP hy hd hv
  · exact foreign_ITIP hy hd hv
  · exact foreign_SGCN hy hd hv
  · exact foreign_SGLN hy hd hv
  · exact foreign_SGTIN hy hd hv
  · exact foreign_SSCC hy hd hv
  · exact foreign_USDOD hy hd hv

/-- With a filter value of any class the binary has the number in the filter field, widened if need be, and the tag URI is read back as the same object (of a
GIAI: if there is no colon in its asset reference). -/
theorem C98_filter (c : Cls) (hc : c.isTagEncodable = true) (hg : c ≠ .gid) (u : Str) (o : Val) (h : construct (clOf c) [.str u] = .ok o)
    (s : Val) (hs : s ∈ codings (clOf c)) (f : Fin 64) (v v0 : Val) (hv : IsFilter f v) (hv0 : IsFilter (0 : Fin 64) v0) :
    Widened c o s f v v0 ∧ ((c = .giai → ':' ∉ afterColons 4 u) → ReadBack c o s v) := by
  obtain ⟨x, hx, rfl⟩ := constructed h
  obtain ⟨cs, hcs, rfl⟩ := any_coding hs
  cases c <;> first | (cases hc; done) | exact absurd rfl hg | skip
  all_goals
    obtain ⟨y, hy, rfl⟩ := map_ok_iff.1 hx
    cases cs <;> first | (cases hcs; done) | skip
  · exact ⟨widened_ADI y _ f v v0 hv hv0, fun _ => readBack_ADI hy _ f v hv⟩
  · exact ⟨widened_CPI y _ f v v0 hv hv0, fun _ => readBack_CPI hy _ f v hv⟩
  · exact ⟨widened_GDTI y _ f v v0 hv hv0, fun _ => readBack_GDTI hy _ f v hv⟩
  · exact ⟨widened_GIAI y _ f v v0 hv hv0, fun hn => readBack_GIAI hy _ f v hv (hn rfl)⟩
  · exact ⟨widened_GRAI y _ f v v0 hv hv0, fun _ => readBack_GRAI hy _ f v hv⟩
  · exact ⟨widened_GSRN y _ f v v0 hv hv0, fun _ => readBack_GSRN hy _ f v hv⟩
  · exact ⟨widened_GSRNP y _ f v v0 hv hv0, fun _ => readBack_GSRNP hy _ f v hv⟩
  · exact ⟨widened_ITIP y _ f v v0 hv hv0, fun _ => readBack_ITIP hy _ f v hv⟩
  · exact ⟨widened_SGCN y _ f v v0 hv hv0, fun _ => readBack_SGCN hy _ f v hv⟩
  · exact ⟨widened_SGLN y _ f v v0 hv hv0, fun _ => readBack_SGLN hy _ f v hv⟩
  · exact ⟨widened_SGTIN y _ f v v0 hv hv0, fun _ => readBack_SGTIN hy _ f v hv⟩
  · exact ⟨widened_SSCC y _ f v v0 hv hv0, fun _ => readBack_SSCC hy _ f v hv⟩
  · exact ⟨widened_USDOD y _ f v v0 hv hv0, fun _ => readBack_USDOD hy _ f v hv⟩

/-- `gtin(gtin_type=n)` and `gs1_key(gtin_type=n)` of SGTIN and LGTIN for every integer `n`; `g` is the GTIN of 14 digits. -/
theorem C98_gtin (c : Cls) (hc : c = .sgtin ∨ c = .lgtin) (u : Str) (o : Val) (h : construct (clOf c) [.str u] = .ok o) :
    ∃ g, invoke o .gs1_key [] [] = .ok (.str g) ∧ g.length = 14 ∧ ∀ m ∈ [Nm.gtin, .gs1_key], ∀ n : Int,
      (n < 0 → invoke o m [] [(.gtin_type, .int n)] = .error (.err .convert)) ∧
      (0 ≤ n → n ≤ 14 → ∀ z t, g = z ++ t → (t.length : Int) = n →
        invoke o m [] [(.gtin_type, .int n)] = if z = List.replicate z.length '0' then .ok (.str t) else .error (.err .convert)) ∧
      (14 < n → n ≤ 28 → ∀ z t, g = z ++ t → (t.length : Int) = n - 14 → invoke o m [] [(.gtin_type, .int n)] = .ok (.str t)) ∧
      (28 < n → invoke o m [] [(.gtin_type, .int n)] = .ok (.str g)) := by
  have key : ∀ {o : Val} {g : Str} {n : Int} {r : M Val} {r' : Except Err Str}, r = outcome .str r' →
      (n < 0 → r' = .error .convert) ∧ (0 ≤ n → n ≤ 14 → ∀ z t, g = z ++ t → (t.length : Int) = n →
        r' = if z = List.replicate z.length '0' then .ok t else .error .convert) ∧
      (14 < n → n ≤ 28 → ∀ z t, g = z ++ t → (t.length : Int) = n - 14 → r' = .ok t) ∧ (28 < n → r' = .ok g) →
      (n < 0 → r = .error (.err .convert)) ∧ (0 ≤ n → n ≤ 14 → ∀ z t, g = z ++ t → (t.length : Int) = n →
        r = if z = List.replicate z.length '0' then .ok (.str t) else .error (.err .convert)) ∧
      (14 < n → n ≤ 28 → ∀ z t, g = z ++ t → (t.length : Int) = n - 14 → r = .ok (.str t)) ∧ (28 < n → r = .ok (.str g)) := by
    rintro o g n r r' rfl ⟨h1, h2, h3, h4⟩
    refine ⟨fun a => by rw [h1 a]; rfl, fun a b z t e l => ?_, fun a b z t e l => by rw [h3 a b z t e l]; rfl, fun a => by rw [h4 a]; rfl⟩
    rw [h2 a b z t e l]
    split <;> rfl
  obtain ⟨x, hx, rfl⟩ := constructed h
  rcases hc with rfl | rfl
  · obtain ⟨y, hy, rfl⟩ := map_ok_iff.1 hx
    obtain ⟨-, g, hg, hl, -⟩ := C90_sgtin_partial u y 0 hy
    refine ⟨g, ?_, hl, ?_⟩
    · rw [show ([] : List (Nm × Val)) = keyKw .none from rfl, C92_keys (.sgtin y) .none rfl]
      exact congrArg (outcome .str) hg
    · intro m hm n
      obtain ⟨e, g', hg', -, hr⟩ := C90_sgtin_partial u y n hy
      cases hg.symm.trans hg'
      simp only [List.mem_cons, List.not_mem_nil, or_false] at hm
      rcases hm with rfl | rfl
      · exact key (o := objSGTIN y) ((invoke_eq rfl (fun _ => rfl) (int_SGTIN_gtin 15 y n)).trans (lift_outcome _ _)) hr
      · exact key (o := objSGTIN y) ((invoke_eq rfl (fun _ => rfl) (int_SGTIN_gs1_key 14 y n)).trans (lift_outcome _ _)) (by rw [e]; exact hr)
  · obtain ⟨y, hy, rfl⟩ := map_ok_iff.1 hx
    obtain ⟨-, g, hg, hl, -⟩ := C90_lgtin_partial u y 0 hy
    refine ⟨g, ?_, hl, ?_⟩
    · rw [show ([] : List (Nm × Val)) = keyKw .none from rfl, C92_keys (.lgtin y) .none rfl]
      exact congrArg (outcome .str) hg
    · intro m hm n
      obtain ⟨e, g', hg', -, hr⟩ := C90_lgtin_partial u y n hy
      cases hg.symm.trans hg'
      simp only [List.mem_cons, List.not_mem_nil, or_false] at hm
      rcases hm with rfl | rfl
      · exact key (o := objLGTIN y) ((invoke_eq rfl (fun _ => rfl) (int_LGTIN_gtin 15 y n)).trans (lift_outcome _ _)) hr
      · exact key (o := objLGTIN y) ((invoke_eq rfl (fun _ => rfl) (int_LGTIN_gs1_key 14 y n)).trans (lift_outcome _ _)) (by rw [e]; exact hr)

private theorem plus_int (g : Str) (k n : Int) :
    invoke (.cls .SGTIN) .from_gtin_plus_serial [.str g, .int k, .int n] [] = outcome objSGTIN (Epc.SGTIN.fromGtinPlusInt g k n) := by
  rw [← lift_outcome]; exact int_SGTIN_from_gtin_plus_serial 13 g k n

/-- A number as serial means its decimal form, whatever the other arguments; and which numbers are accepted. -/
theorem C98_serial (k : Int) : (∃ t, WritesInt t k ∧ ∀ (g : Str) (n : Int),
      invoke (.cls .SGTIN) .from_gtin_plus_serial [.str g, .int k, .int n] [] = invoke (.cls .SGTIN) .from_gtin_plus_serial [.str g, .str t, .int n] []) ∧
    ∀ (g : Str) (n : Int), UDigits g → g.length ≤ 14 →
      ((∃ o, invoke (.cls .SGTIN) .from_gtin_plus_serial [.str g, .int k, .int n] [] = .ok o) ↔
        ((6 ≤ n ∧ n ≤ 12) ∨ (-8 ≤ n ∧ n ≤ -2)) ∧ -10 ^ 19 < k ∧ k < 10 ^ 20) := by
  refine ⟨⟨intStr k, writes_intStr k, fun g n => ?_⟩, fun g n hg hl => ?_⟩
  · rw [plus_int, C91_gtin_plus_serial]; rfl
  · rw [plus_int, ← C89_accepts g k n hg hl]
    cases h : Epc.SGTIN.fromGtinPlusInt g k n with
    | ok y => exact ⟨fun _ => ⟨y, rfl⟩, fun _ => ⟨_, rfl⟩⟩
    | error e => exact ⟨fun ⟨_, h⟩ => (nomatch h), fun ⟨_, h⟩ => (nomatch h)⟩

/-! ### Concrete programs -/

-- the value of another class's coding scheme in the tag URI, KeyError from the other methods
example : returnsStr (do
    let o ← construct .SSCC [.str (py "urn:epc:id:sscc:0614141.1234567890")]
    invoke o .tag_uri [] [(.binary_coding_scheme, .member .GSRN .BinaryCodingScheme .GSRN_96 (py "GSRN_96") (py "gsrn-96")),
      (.filter_value, .member .ADIFilterValue .IMPLICIT .SEAT_COVERS (py "SEAT_COVERS") (py "9"))]) (py "urn:epc:tag:gsrn-96:9.0614141.1234567890") = true := by
  decide +kernel
example : raises (do
    let o ← construct .SSCC [.str (py "urn:epc:id:sscc:0614141.1234567890")]
    invoke o .hex [] [(.binary_coding_scheme, .member .GSRN .BinaryCodingScheme .GSRN_96 (py "GSRN_96") (py "gsrn-96")),
      (.filter_value, .member .ADIFilterValue .IMPLICIT .SEAT_COVERS (py "SEAT_COVERS") (py "9"))]) (.err .key) = true := by decide +kernel
-- a kind of GTIN that does not exist
example : returnsStr (do
    let o ← construct .SGTIN [.str (py "urn:epc:id:sgtin:0614141.012345.400")]
    invoke o .gtin [] [(.gtin_type, .int 15)]) (py "2") = true := by decide +kernel
-- a number as serial
example : returnsUri (invoke (.cls .SGTIN) .from_gtin_plus_serial [.str (py "00614141123452"), .int (-7), .int 7] [])
    (py "urn:epc:id:sgtin:0614141.012345.-7") = true := by decide +kernel

end Epc.Src
