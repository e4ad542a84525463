/-
C37: a GS1 element string is claimed by at most one scheme.

`Cls.elemRegex c` is the element-string pattern of class `c` (16 classes have one), `Re.fullmatch` the match with `^…\Z`.
`C37_dispatch` says that the string printed by an accepted object is handed to the class of the object: the result is that of
its own class.  `C37_dispatch_class` says that the table finds that class; coupons (SGCN) with a serial of non-ASCII digits are
the one exception, where no class claims the string and the dispatch and the class refuse it with the same exception.
-/
import Verif.Lemmas.ElemDispatch
import Verif.Props.C46

namespace Epc
open Spec Re

/-- No string matches the patterns of two classes. -/
theorem C37_disjoint (c c' : Cls) (r r' : Re) (s : Str) (hr : c.elemRegex = some r) (hr' : c'.elemRegex = some r')
    (h : r.fullmatch s = true) (h' : r'.fullmatch s = true) : c = c' :=
  elem_unique hr hr' h h'

/-- The classes that have a pattern are the subclasses of `GS1Element`. -/
theorem C37_classes (c : Cls) : (∃ r, c.elemRegex = some r) ↔ c.isGs1Element = true := by
  cases c <;> simp [Cls.elemRegex, Cls.isGs1Element]

/-- A class whose pattern matches gets the string, and what it returns is the result. -/
theorem C37_matched (c : Cls) (r : Re) (s : Str) (n : Int) (hr : c.elemRegex = some r) (h : r.fullmatch s = true) :
    gs1ElementStringToGs1Element s n = c.fromGs1ElementString s n := by
  unfold gs1ElementStringToGs1Element
  rw [elemCls_iff.2 ⟨r, hr, h⟩]

/-- A string that no pattern matches is refused. -/
theorem C37_unmatched (s : Str) (n : Int) (h : ∀ (c : Cls) (r : Re), c.elemRegex = some r → r.fullmatch s = false) :
    gs1ElementStringToGs1Element s n = .error .convert := by
  unfold gs1ElementStringToGs1Element
  rw [elemCls_none.2 h]

/-- The order of the table of classes does not matter: any enumeration of the classes gives the same class. -/
theorem C37_order (l : List Cls) (hl : ∀ c, c ∈ l) (s : Str) :
    l.find? (fun c => match c.elemRegex with | some r => r.fullmatch s | Option.none => false) = elemCls s := by
  have e : ∀ c, l.find? (claims s) = some c ↔ elemCls s = some c := fun c => by
    rw [find_claims hl, elemCls_iff, claims_iff]
  show l.find? (claims s) = elemCls s
  cases h : l.find? (claims s) with
  | some c => exact ((e c).1 h).symm
  | none =>
    cases h' : elemCls s with
    | none => rfl
    | some c => rw [(e c).2 h'] at h; cases h

theorem C37_dispatch_class (c : Cls) (u : Str) (x : Scheme) (s : Str) (hx : ∀ y, x = .sgcn y → Ascii y.serial)
    (hu : c.new u = .ok x) (hs : x.gs1ElementString = .ok s) : elemCls s = some c := by
  cases c <;> simp only [Cls.new] at hu <;> obtain ⟨y, hy, rfl⟩ := map_ok_iff.1 hu <;> simp only [Scheme.gs1ElementString, reduceCtorEq] at hs
  · obtain ⟨s', h1, h2, -⟩ := C46_cpi _ _ hy
    rw [h1] at hs; cases hs; exact elemCls_iff.2 ⟨_, rfl, h2⟩
  · obtain ⟨s', h1, h2, -⟩ := C46_gdti _ _ hy
    rw [h1] at hs; cases hs; exact elemCls_iff.2 ⟨_, rfl, h2⟩
  · obtain ⟨s', h1, h2, -⟩ := C46_giai _ _ hy
    rw [h1] at hs; cases hs; exact elemCls_iff.2 ⟨_, rfl, h2⟩
  · obtain ⟨s', h1, h2, -⟩ := C46_ginc _ _ hy
    rw [h1] at hs; cases hs; exact elemCls_iff.2 ⟨_, rfl, h2⟩
  · obtain ⟨s', h1, h2, -⟩ := C46_grai _ _ hy
    rw [h1] at hs; cases hs; exact elemCls_iff.2 ⟨_, rfl, h2⟩
  · obtain ⟨s', h1, h2, -⟩ := C46_gsin _ _ hy
    rw [h1] at hs; cases hs; exact elemCls_iff.2 ⟨_, rfl, h2⟩
  · obtain ⟨s', h1, h2, -⟩ := C46_gsrn _ _ hy
    rw [h1] at hs; cases hs; exact elemCls_iff.2 ⟨_, rfl, h2⟩
  · obtain ⟨s', h1, h2, -⟩ := C46_gsrnp _ _ hy
    rw [h1] at hs; cases hs; exact elemCls_iff.2 ⟨_, rfl, h2⟩
  · obtain ⟨s', h1, h2, -⟩ := C46_itip _ _ hy
    rw [h1] at hs; cases hs; exact elemCls_iff.2 ⟨_, rfl, h2⟩
  · obtain ⟨s', h1, h2, -⟩ := C46_lgtin _ _ hy
    rw [h1] at hs; cases hs; exact elemCls_iff.2 ⟨_, rfl, h2⟩
  · obtain ⟨s', h1, h2, -⟩ := C46_pgln _ _ hy
    rw [h1] at hs; cases hs; exact elemCls_iff.2 ⟨_, rfl, h2⟩
  · obtain ⟨s', h1, h2, -⟩ := C46_sgcn_partial _ _ (hx _ rfl) hy
    rw [h1] at hs; cases hs; exact elemCls_iff.2 ⟨_, rfl, h2⟩
  · obtain ⟨s', h1, h2, -⟩ := C46_sgln _ _ hy
    rw [h1] at hs; cases hs; exact elemCls_iff.2 ⟨_, rfl, h2⟩
  · obtain ⟨s', h1, h2, -⟩ := C46_sgtin _ _ hy
    rw [h1] at hs; cases hs; exact elemCls_iff.2 ⟨_, rfl, h2⟩
  · obtain ⟨s', h1, h2, -⟩ := C46_sscc _ _ hy
    rw [h1] at hs; cases hs; exact elemCls_iff.2 ⟨_, rfl, h2⟩
  · by_cases hi : y.itemRef = []
    · rw [C46_upui_index _ _ hi hy] at hs; cases hs
    · obtain ⟨s', h1, h2, -⟩ := C46_upui_partial _ _ hi hy
      rw [h1] at hs; cases hs; exact elemCls_iff.2 ⟨_, rfl, h2⟩

/-- What an accepted object prints is handled by its own class, for every company prefix length. -/
theorem C37_dispatch (c : Cls) (u : Str) (x : Scheme) (s : Str) (hu : c.new u = .ok x) (hs : x.gs1ElementString = .ok s) (n : Int) :
    gs1ElementStringToGs1Element s n = c.fromGs1ElementString s n := by
  by_cases hx : ∀ y, x = .sgcn y → Ascii y.serial
  · unfold gs1ElementStringToGs1Element
    rw [C37_dispatch_class c u x s hx hu hs]
  · obtain ⟨y, hy⟩ := Classical.not_forall.1 hx
    obtain ⟨rfl, -⟩ := Classical.not_imp.1 hy
    cases c <;> simp only [Cls.new] at hu <;> obtain ⟨z, hz, e⟩ := map_ok_iff.1 hu <;> cases e
    cases hm : Rx.sgcnElem.fullmatch s with
    | true => exact C37_matched .sgcn _ _ _ rfl hm
    | false =>
      have hn : elemCls s = Option.none := by
        refine elemCls_none.2 fun c r hr => Bool.eq_false_iff.2 fun h => ?_
        have h1 := sig_of_match hr h
        cases hs
        have h2 : elemSig (py "(255)" ++ y.gcn) = (py "(255", []) := elemSig_of (a := py "(255") (by decide) (by decide)
        rw [h2] at h1
        obtain rfl := clsSig_inj h1 (show clsSig .sgcn = _ from rfl)
        cases hr
        rw [hm] at h
        cases h
      unfold gs1ElementStringToGs1Element
      rw [hn]
      simp only [Cls.fromGs1ElementString, SGCN.fromGs1ElementString]
      rw [hm]
      rfl

-- Each class is really reached.
example : elemCls (py "(01)09521141123454(21)32a/b") = some .sgtin := by decide +kernel
example : elemCls (py "(01)09521141123454(10)32a/b") = some .lgtin := by decide +kernel
example : elemCls (py "(01)09521141123454(235)51qIgY)") = some .upui := by decide +kernel
example : elemCls (py "(01)09521141123454") = Option.none := by decide +kernel
example : (gs1ElementStringToGs1Element (py "(00)095201234567891235") 7).toOption.map (·.epcUri)
    = some (py "urn:epc:id:sscc:9520123.0456789123") := by decide +kernel
example : (SGCN.new (py "urn:epc:id:sgcn:9521141.67890.٠٤")).toOption.map (·.gs1ElementString) = some (.ok (py "(255)9521141678909٠٤"))
    ∧ elemCls (py "(255)9521141678909٠٤") = Option.none := by decide +kernel

end Epc
