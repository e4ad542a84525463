/-
C111: what is read from a label survives every chain of conversions, executed from the source.

`Chain o r`: the object is written down in some notation, read by the general parser of the notation, written down again, …; `r` is the outcome
(`Spec/Program`).  Which URIs give objects that survive is C97; here the object comes from the GS1 element string of a label.
-/
import Verif.Spec.Program
import Verif.Lemmas.PortableUri
import Verif.Lemmas.ElemParse
import Verif.Lemmas.ElemDispatch
import Verif.Lemmas.KeyForms
import Verif.Props.C11
import Verif.Props.C97
set_option linter.unusedVariables false

namespace Epc.Src
open Spec

private theorem ascii_app {a b : Str} : Ascii (a ++ b) ↔ Ascii a ∧ Ascii b := by
  unfold Ascii
  simp only [List.mem_append, or_imp, forall_and]

private theorem ascii_cons {c : Char} {b : Str} : Ascii (c :: b) ↔ c.toNat < 128 ∧ Ascii b := by
  unfold Ascii
  simp only [List.mem_cons, forall_eq_or_imp]

private theorem ascii_esc {raw : Str} (h : Ascii raw) : Ascii (escape raw) := by
  intro c hc
  obtain ⟨a, ha, hc⟩ := List.mem_flatMap.1 hc
  unfold escChar at hc
  repeat' split at hc
  all_goals first
    | (simp only [List.mem_singleton] at hc; subst hc; exact h _ ha)
    | (simp only [List.mem_cons, List.not_mem_nil, or_false] at hc; rcases hc with rfl | rfl | rfl <;> decide)

private theorem ascii_esc39 {raw : Str} (h : Ascii raw) : Ascii (escape39 raw) := by
  intro c hc
  obtain ⟨a, ha, hc⟩ := List.mem_flatMap.1 hc
  unfold escChar39 at hc
  repeat' split at hc
  all_goals first
    | (simp only [List.mem_singleton] at hc; subst hc; exact h _ ha)
    | (simp only [List.mem_cons, List.not_mem_nil, or_false] at hc; rcases hc with rfl | rfl | rfl <;> decide)

private theorem asc2 {p a b : Str} (hp : Ascii p) (ha : Ascii a) (hb : Ascii b) : Ascii (p ++ ':' :: (a ++ '.' :: b)) :=
  ascii_app.2 ⟨hp, ascii_cons.2 ⟨by decide, ascii_app.2 ⟨ha, ascii_cons.2 ⟨by decide, hb⟩⟩⟩⟩

private theorem asc3 {p a b c : Str} (hp : Ascii p) (ha : Ascii a) (hb : Ascii b) (hc : Ascii c) : Ascii (p ++ ':' :: (a ++ '.' :: (b ++ '.' :: c))) :=
  asc2 hp ha (ascii_app.2 ⟨hb, ascii_cons.2 ⟨by decide, hc⟩⟩)

/-- The URI of an object that is made of the text of a label. -/
private theorem label_uri {c : Cls} {s : Str} {n : Int} {x : Scheme} (ha : Ascii s) (h1 : c = .giai → '.' ∉ s ∧ ':' ∉ s) (h2 : c = .ginc → '.' ∉ s)
    (h : c.fromGs1ElementString s n = .ok x) : ∃ u, c.new u = .ok x ∧ PortableUri c u := by
  cases c <;> try (cases h; done)
  case sgtin =>
    obtain ⟨y, hy, rfl⟩ := map_ok_iff.1 h
    obtain ⟨i, C, I, k, raw, ⟨hd, -⟩, -, hg, -, rfl, hn⟩ := (SGTIN.from_iff _ _ _).1 hy
    have hd' := Dec.cons.1 hd
    have hC := (Dec.append.1 hd'.2).1
    have hI : Dec (i :: I) := Dec.cons.2 ⟨hd'.1, (Dec.append.1 (Dec.append.1 hd'.2).2).1⟩
    have aC : Ascii C := fun a h => ha a (by simp [h])
    have ai : Ascii (i :: I) := ascii_cons.2 ⟨ha i (by simp), fun a h => ha a (by simp [h])⟩
    have ar : Ascii raw := fun a h => ha a (by simp [h])
    exact ⟨_, congrArg (Except.map Scheme.sgtin) hn, asc3 (by decide) aC ai (ascii_esc ar), C, i :: I, raw, hC.no_dot, hI.no_dot, rfl, hg⟩
  case lgtin =>
    obtain ⟨y, hy, rfl⟩ := map_ok_iff.1 h
    obtain ⟨i, C, I, k, raw, ⟨hd, -⟩, -, hg, -, rfl, hn⟩ := (LGTIN.from_iff _ _ _).1 hy
    have hd' := Dec.cons.1 hd
    have hC := (Dec.append.1 hd'.2).1
    have hI : Dec (i :: I) := Dec.cons.2 ⟨hd'.1, (Dec.append.1 (Dec.append.1 hd'.2).2).1⟩
    exact ⟨_, congrArg (Except.map Scheme.lgtin) hn, C, i :: I, raw, hC.no_dot, hI.no_dot, rfl, hg⟩
  case upui =>
    obtain ⟨y, hy, rfl⟩ := map_ok_iff.1 h
    obtain ⟨i, C, I, k, raw, ⟨hd, -⟩, -, -, rfl, hn⟩ := (UPUI.from_iff _ _ _).1 hy
    have hd' := Dec.cons.1 hd
    have hC := (Dec.append.1 hd'.2).1
    have hI : Dec (i :: I) := Dec.cons.2 ⟨hd'.1, (Dec.append.1 (Dec.append.1 hd'.2).2).1⟩
    exact ⟨_, congrArg (Except.map Scheme.upui) hn, C, i :: I, escape raw, hC.no_dot, hI.no_dot, rfl, .inr ⟨raw, rfl⟩⟩
  case sgln =>
    obtain ⟨y, hy, rfl⟩ := map_ok_iff.1 h
    obtain ⟨C, I, k, raw, ⟨hd, -⟩, -, hg, -, rfl, hn⟩ := (SGLN.from_iff _ _ _).1 hy
    have hC := (Dec.append.1 hd).1
    have hI := (Dec.append.1 (Dec.append.1 hd).2).1
    have aC : Ascii C := fun a h => ha a (by simp [h])
    have aI : Ascii I := fun a h => ha a (by simp [h])
    have ar : Ascii raw := fun a h => ha a (by simp [h])
    exact ⟨_, congrArg (Except.map Scheme.sgln) hn, asc3 (by decide) aC aI (ascii_esc ar), C, I, raw, hC.no_dot, hI.no_dot, rfl, hg⟩
  case grai =>
    obtain ⟨y, hy, rfl⟩ := map_ok_iff.1 h
    obtain ⟨C, I, k, raw, ⟨hd, -⟩, -, -, rfl, hn⟩ := (GRAI.from_iff _ _ _).1 hy
    have hC := (Dec.append.1 hd).1
    have hI := (Dec.append.1 (Dec.append.1 hd).2).1
    have aC : Ascii C := fun a h => ha a (by simp [h])
    have aI : Ascii I := fun a h => ha a (by simp [h])
    have ar : Ascii raw := fun a h => ha a (by simp [h])
    exact ⟨_, congrArg (Except.map Scheme.grai) hn, asc3 (by decide) aC aI (ascii_esc ar), C, I, raw, hC.no_dot, hI.no_dot, rfl⟩
  case gdti =>
    obtain ⟨y, hy, rfl⟩ := map_ok_iff.1 h
    obtain ⟨C, I, k, raw, ⟨hd, -⟩, -, -, rfl, hn⟩ := (GDTI.from_iff _ _ _).1 hy
    have hC := (Dec.append.1 hd).1
    have hI := (Dec.append.1 (Dec.append.1 hd).2).1
    have aC : Ascii C := fun a h => ha a (by simp [h])
    have aI : Ascii I := fun a h => ha a (by simp [h])
    have ar : Ascii raw := fun a h => ha a (by simp [h])
    exact ⟨_, congrArg (Except.map Scheme.gdti) hn, asc3 (by decide) aC aI (ascii_esc ar), C, I, raw, hC.no_dot, hI.no_dot, rfl⟩
  case sgcn =>
    obtain ⟨y, hy, rfl⟩ := map_ok_iff.1 h
    obtain ⟨C, I, k, raw, ⟨hd, -⟩, -, -, rfl, hn⟩ := (SGCN.from_iff _ _ _).1 hy
    have aC : Ascii C := fun a h => ha a (by simp [h])
    have aI : Ascii I := fun a h => ha a (by simp [h])
    have ar : Ascii raw := fun a h => ha a (by simp [h])
    exact ⟨_, congrArg (Except.map Scheme.sgcn) hn, asc3 (by decide) aC aI (ascii_esc ar)⟩
  case sscc =>
    obtain ⟨y, hy, rfl⟩ := map_ok_iff.1 h
    obtain ⟨i, C, I, k, ⟨hd, -⟩, -, rfl, hn⟩ := (SSCC.from_iff _ _ _).1 hy
    have aC : Ascii C := fun a h => ha a (by simp [h])
    have ai : Ascii (i :: I) := ascii_cons.2 ⟨ha i (by simp), fun a h => ha a (by simp [h])⟩
    exact ⟨_, congrArg (Except.map Scheme.sscc) hn, asc2 (by decide) aC ai⟩
  case gsrn =>
    obtain ⟨y, hy, rfl⟩ := map_ok_iff.1 h
    obtain ⟨C, I, k, ⟨hd, -⟩, -, rfl, hn⟩ := (GSRN.from_iff _ _ _).1 hy
    have aC : Ascii C := fun a h => ha a (by simp [h])
    have aI : Ascii I := fun a h => ha a (by simp [h])
    exact ⟨_, congrArg (Except.map Scheme.gsrn) hn, asc2 (by decide) aC aI⟩
  case gsrnp =>
    obtain ⟨y, hy, rfl⟩ := map_ok_iff.1 h
    obtain ⟨C, I, k, ⟨hd, -⟩, -, rfl, hn⟩ := (GSRNP.from_iff _ _ _).1 hy
    have aC : Ascii C := fun a h => ha a (by simp [h])
    have aI : Ascii I := fun a h => ha a (by simp [h])
    exact ⟨_, congrArg (Except.map Scheme.gsrnp) hn, asc2 (by decide) aC aI⟩
  case pgln =>
    obtain ⟨y, hy, rfl⟩ := map_ok_iff.1 h
    obtain ⟨C, I, k, ⟨hd, -⟩, -, rfl, hn⟩ := (PGLN.from_iff _ _ _).1 hy
    exact ⟨_, congrArg (Except.map Scheme.pgln) hn, trivial⟩
  case gsin =>
    obtain ⟨y, hy, rfl⟩ := map_ok_iff.1 h
    obtain ⟨C, I, k, ⟨hd, -⟩, -, rfl, hn⟩ := (GSIN.from_iff _ _ _).1 hy
    exact ⟨_, congrArg (Except.map Scheme.gsin) hn, trivial⟩
  case itip =>
    obtain ⟨y, hy, rfl⟩ := map_ok_iff.1 h
    obtain ⟨i, C, I, k, A, B, raw, ⟨hd, -, lA, lB⟩, -, -, rfl, hn⟩ := (ITIP.from_iff _ _ _).1 hy
    have hd' := Dec.cons.1 hd
    have hC := (Dec.append.1 hd'.2).1
    have hI : Dec (i :: I) := Dec.cons.2 ⟨hd'.1, (Dec.append.1 (Dec.append.1 hd'.2).2).1⟩
    have hAB := Dec.append.1 (Dec.cons.1 (Dec.append.1 (Dec.append.1 hd'.2).2).2).2
    have aC : Ascii C := fun a h => ha a (by simp [h])
    have ai : Ascii (i :: I) := ascii_cons.2 ⟨ha i (by simp), fun a h => ha a (by simp [h])⟩
    have ar : Ascii raw := fun a h => ha a (by simp [h])
    have aA : Ascii A := fun a h => ha a (by simp [h])
    have aB : Ascii B := fun a h => ha a (by simp [h])
    exact ⟨_, congrArg (Except.map Scheme.itip) hn, C, i :: I, A, B, raw, hC.no_dot, hI.no_dot, hAB.1.no_dot, hAB.2.no_dot, rfl, lA, lB,
      .inl (asc3 (by decide) aC ai (ascii_app.2 ⟨aA, ascii_cons.2 ⟨by decide, ascii_app.2 ⟨aB, ascii_cons.2 ⟨by decide, ascii_esc ar⟩⟩⟩⟩))⟩
  case giai =>
    obtain ⟨y, hy, rfl⟩ := map_ok_iff.1 h
    obtain ⟨C, raw, -, -, rfl, hn⟩ := (GIAI.from_iff _ _ _).1 hy
    have aC : Ascii C := fun a h => ha a (by simp [h])
    have ar : Ascii raw := fun a h => ha a (by simp [h])
    obtain ⟨k1, k2⟩ := h1 rfl
    exact ⟨_, congrArg (Except.map Scheme.giai) hn, asc2 (by decide) aC (ascii_esc ar), C, raw, fun h => k1 (by simp [h]), fun h => k2 (by simp [h]), rfl⟩
  case ginc =>
    obtain ⟨y, hy, rfl⟩ := map_ok_iff.1 h
    obtain ⟨C, raw, -, -, rfl, hn⟩ := (GINC.from_iff _ _ _).1 hy
    exact ⟨_, congrArg (Except.map Scheme.ginc) hn, C, raw, fun h => h2 rfl (by simp [h]), rfl⟩
  case cpi =>
    obtain ⟨y, hy, rfl⟩ := map_ok_iff.1 h
    obtain ⟨C, r, t, -, -, -, rfl, hn⟩ := (CPI.from_iff _ _ _).1 hy
    have aC : Ascii C := fun a h => ha a (by simp [h])
    have ar : Ascii r := fun a h => ha a (by simp [h])
    have at' : Ascii t := fun a h => ha a (by simp [h])
    exact ⟨_, congrArg (Except.map Scheme.cpi) hn, asc3 (by decide) aC (ascii_esc39 ar) at'⟩

private theorem survives {c : Cls} {s : Str} {n : Int} {x : Scheme} (ha : Ascii s) (h1 : c = .giai → '.' ∉ s ∧ ':' ∉ s) (h2 : c = .ginc → '.' ∉ s)
    (h : c.fromGs1ElementString s n = .ok x) (r : M Val) (hr : Chain (objScheme x) r) : r = .ok (objScheme x) := by
  obtain ⟨u, hu, hp⟩ := label_uri ha h1 h2 h
  exact (C97_chain c u _ (by rw [(C91_constructors c u).1, hu]; rfl)).2 hp r hr

/-- `from_gs1_element_string` of each of the 16 classes that have it, every prefix length: the object read from a text of ASCII characters arrives
unchanged, whatever the chain; for GIAI the text may not have a dot or a colon, for GINC no dot. -/
theorem C111_class (c : Cls) (s : Str) (n : Int) (o : Val) (hc : c.isGs1Element = true) (ha : Ascii s)
    (h1 : c = .giai → '.' ∉ s ∧ ':' ∉ s) (h2 : c = .ginc → '.' ∉ s)
    (h : invoke (.cls (clOf c)) .from_gs1_element_string [.str s, .int n] [] = .ok o) (r : M Val) (hr : Chain o r) : r = .ok o := by
  rw [C91_element_strings c s n hc] at h
  cases hx : c.fromGs1ElementString s n with
  | error e => rw [hx] at h; cases h
  | ok x => rw [hx] at h; cases h; exact survives ha h1 h2 hx r hr

/-- The same for the general parser. -/
theorem C111_label (s : Str) (n : Int) (o : Val) (ha : Ascii s) (h1 : py "(8004)" <+: s → '.' ∉ s ∧ ':' ∉ s) (h2 : py "(401)" <+: s → '.' ∉ s)
    (h : function .gs1_element_string_to_gs1_element [.str s, .int n] [] = .ok o) (r : M Val) (hr : Chain o r) : r = .ok o := by
  rw [C93_gs1_element_string_to_gs1_element] at h
  cases hx : gs1ElementStringToGs1Element s n with
  | error e => rw [hx] at h; cases h
  | ok x =>
    rw [hx] at h
    cases h
    unfold gs1ElementStringToGs1Element at hx
    split at hx
    · rename_i c hc
      refine survives ha ?_ ?_ hx r hr
      · rintro rfl
        obtain ⟨z, hz, -⟩ := map_ok_iff.1 hx
        obtain ⟨C, q, -, -, e, -⟩ := (GIAI.from_iff _ _ _).1 hz
        exact h1 ⟨C ++ q, e.symm⟩
      · rintro rfl
        obtain ⟨z, hz, -⟩ := map_ok_iff.1 hx
        obtain ⟨C, q, -, -, e, -⟩ := (GINC.from_iff _ _ _).1 hz
        exact h2 ⟨C ++ q, e.symm⟩
    · cases hx

/-- Each of the conditions is needed: a colon and a dot in the label of an asset, a dot in the label of a consignment, digits that are not ASCII.  The
labels are read, and some chain loses the object. -/
theorem C111_needed : ∀ p ∈ [(py "(8004)9521141A:1", (7 : Int)), (py "(8004)9521141.%281", 11), (py "(401)9521141.%411", 11), (py "(00)10614141234567٠٠٠٧", 7)],
    ∃ o, function .gs1_element_string_to_gs1_element [.str p.1, .int p.2] [] = .ok o ∧ ∃ r, Chain o r ∧ r ≠ .ok o := by
  have key {s : Str} {n : Int} {c : Cls} {u : Str} (x : Scheme) (h1 : gs1ElementStringToGs1Element s n = .ok x) (hx : c.new u = .ok x) (h3 : ¬ Portable x) :
      ∃ o, function .gs1_element_string_to_gs1_element [.str s, .int n] [] = .ok o ∧ ∃ r, Chain o r ∧ r ≠ .ok o := by
    refine ⟨objScheme x, by rw [C93_gs1_element_string_to_gs1_element, h1]; rfl, ?_⟩
    apply Classical.byContradiction
    intro hr
    refine h3 ((portable_iff hx).2 ((C97_chain c u (objScheme x) (by rw [(C91_constructors c u).1, hx]; rfl)).1 fun r hc => ?_))
    exact Classical.byContradiction fun hn => hr ⟨r, hc, hn⟩
  have noesc {t : Str} (h : escape (replaceUriEscapes t) ≠ t) (raw : Str) : t ≠ escape raw := by
    rintro rfl
    rw [replaceUriEscapes_escape] at h
    exact h rfl
  intro p hp
  simp only [List.mem_cons, List.not_mem_nil, or_false] at hp
  rcases hp with rfl | rfl | rfl | rfl
  · refine key (c := .giai) (u := py "urn:epc:id:giai:9521141.A:1") (.giai ⟨py "urn:epc:id:giai:9521141.A:1", py "9521141", py "A", py "9521141A"⟩)
      (by decide +kernel) (by decide +kernel) fun hp => ?_
    obtain ⟨-, h, -⟩ := hp
    revert h; decide
  · refine key (c := .giai) (u := py "urn:epc:id:giai:9521141.%28.1") (.giai ⟨py "urn:epc:id:giai:9521141.%28.1", py "9521141", py "%28.1", py "9521141%28.1"⟩)
      (by decide +kernel) (by decide +kernel) fun hp => ?_
    obtain ⟨-, -, raw, h⟩ := hp
    exact noesc (t := py "%28.1") (by decide +kernel) raw h
  · refine key (c := .ginc) (u := py "urn:epc:id:ginc:9521141.%41.1") (.ginc ⟨py "urn:epc:id:ginc:9521141.%41.1", py "9521141%41.1"⟩)
      (by decide +kernel) (by decide +kernel) fun hp => ?_
    obtain ⟨C, raw, hC, h⟩ := hp
    have e : py "9521141" ++ '.' :: py "%41.1" = C ++ '.' :: escape raw := by
      simpa using h
    exact noesc (t := py "%41.1") (by decide +kernel) raw (append_sep_inj (by decide) hC e).2
  · refine key (c := .sscc) (u := py "urn:epc:id:sscc:0614141.1234567٠٠٠")
      (.sscc ⟨py "urn:epc:id:sscc:0614141.1234567٠٠٠", py "0614141", py "1234567٠٠٠", py "10614141234567٠٠٠1"⟩) (by decide +kernel) (by decide +kernel)
      fun hp => ?_
    have h : Ascii (py "urn:epc:id:sscc:0614141.1234567٠٠٠") := hp
    revert h; decide

/-- A label of each kind of object that has tags and labels. -/
example : ([(py "(01)09521141123454(21)A/1", (7 : Int)), (py "(00)106141412345678908", 7), (py "(414)9521141123454(254)1", 7), (py "(8003)09521141123454A", 7),
    (py "(8004)9521141A1", 7), (py "(253)9521141123454A", 7), (py "(255)952114112345412", 7), (py "(8010)9521141AB(8011)12", 7),
    (py "(8006)095211411234540102(21)A", 7), (py "(8018)952114112345678906", 7), (py "(401)9521141A", 7)].map fun p =>
      (gs1ElementStringToGs1Element p.1 p.2).isOk) = List.replicate 11 true := by decide +kernel

end Epc.Src
