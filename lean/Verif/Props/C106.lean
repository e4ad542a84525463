/-
C106: schemes that identify the same thing give the same key.

A product is named by a company prefix and an item reference, with or without a serial, a lot, a third-party extension or a piece number; a
location and a party by a company prefix and a location reference; a service relation by a company prefix and a service reference.
-/
import Verif.Props.C67
import Verif.Props.C38
import Verif.Props.C40
import Verif.Props.C91
import Verif.Props.C92
import Verif.Props.C93
import Verif.Lemmas.Key
import Verif.Lemmas.Unescape
import Verif.Lemmas.SerialText

namespace Epc
open Spec Re

/-! Products: SGTIN, LGTIN, UPUI, ITIP -/

private theorem sgtin_gtin {i : Char} {C I S : Str} {x : SGTIN} (hC : '.' ∉ C) (hI : '.' ∉ i :: I)
    (hu : SGTIN.new (py "urn:epc:id:sgtin:" ++ joinWith '.' [C, i :: I, S]) = .ok x) :
    x.gtin14 = i :: (C ++ I) ++ natStr (uCheck (i :: (C ++ I))) ∧ x.gtin14.length = 14 := by
  obtain ⟨C', J, S', ⟨⟨_, hC'⟩, ⟨_, hI'⟩, _⟩, ⟨hl, _⟩, e, rfl⟩ := SGTIN.new_iff.1 hu
  have e' : py "urn:epc:id:sgtin" ++ ':' :: (C ++ '.' :: ((i :: I) ++ '.' :: S)) = py "urn:epc:id:sgtin" ++ ':' :: (C' ++ '.' :: (J ++ '.' :: S')) := by
    rw [← e]; simp [joinWith]
  obtain ⟨rfl, rfl, rfl⟩ := uri3_inj hC hI hC'.no_dot hI'.no_dot e'
  have hlen : (i :: (C ++ I) ++ natStr (uCheck (i :: (C ++ I)))).length = 14 := by
    rw [List.length_append, length_natStr_uCheck]
    simp only [List.length_append, List.length_cons] at hl ⊢
    omega
  have hpad : padLeft '0' 14 (keyBody C (i :: I) ++ natStr (uCheck (keyBody C (i :: I)))) = i :: (C ++ I) ++ natStr (uCheck (i :: (C ++ I))) :=
    padLeft_of_le (Nat.le_of_eq hlen.symm)
  dsimp only
  rw [hpad]
  exact ⟨rfl, hlen⟩

private theorem lgtin_gtin {i : Char} {C I S : Str} {x : LGTIN} (hC : '.' ∉ C) (hI : '.' ∉ i :: I)
    (hu : LGTIN.new (py "urn:epc:class:lgtin:" ++ joinWith '.' [C, i :: I, S]) = .ok x) :
    x.gtin14 = i :: (C ++ I) ++ natStr (uCheck (i :: (C ++ I))) := by
  obtain ⟨C', J, S', ⟨⟨_, hC'⟩, ⟨_, hI'⟩, _⟩, ⟨hl, _⟩, e, rfl⟩ := LGTIN.new_iff.1 hu
  have e' : py "urn:epc:class:lgtin" ++ ':' :: (C ++ '.' :: ((i :: I) ++ '.' :: S)) = py "urn:epc:class:lgtin" ++ ':' :: (C' ++ '.' :: (J ++ '.' :: S')) := by
    rw [← e]; simp [joinWith]
  obtain ⟨rfl, rfl, rfl⟩ := uri3_inj hC hI hC'.no_dot hI'.no_dot e'
  have hlen : (i :: (C ++ I) ++ natStr (uCheck (i :: (C ++ I)))).length = 14 := by
    rw [List.length_append, length_natStr_uCheck]
    simp only [List.length_append, List.length_cons] at hl ⊢
    omega
  exact padLeft_of_le (Nat.le_of_eq hlen.symm)

/-- An SGTIN without item reference is not accepted. -/
private theorem sgtin_ref {C I S : Str} {x : SGTIN} (hC : '.' ∉ C) (hI : '.' ∉ I)
    (hu : SGTIN.new (py "urn:epc:id:sgtin:" ++ joinWith '.' [C, I, S]) = .ok x) : ∃ i J, I = i :: J := by
  obtain ⟨C', J, S', ⟨⟨_, hC'⟩, ⟨hJ, hI'⟩, _⟩, _, e, rfl⟩ := SGTIN.new_iff.1 hu
  have e' : py "urn:epc:id:sgtin" ++ ':' :: (C ++ '.' :: (I ++ '.' :: S)) = py "urn:epc:id:sgtin" ++ ':' :: (C' ++ '.' :: (J ++ '.' :: S')) := by
    rw [← e]; simp [joinWith]
  obtain ⟨rfl, rfl, rfl⟩ := uri3_inj hC hI hC'.no_dot hI'.no_dot e'
  cases I with
  | nil => exact absurd rfl hJ
  | cons i I => exact ⟨i, I, rfl⟩

/-- SGTIN and LGTIN: the same product has the same GTIN, whatever the serial, the lot and the kind of GTIN asked for. -/
theorem C106_lgtin (C I S L : Str) (x : SGTIN) (y : LGTIN) (hC : '.' ∉ C) (hI : '.' ∉ I)
    (hx : SGTIN.new (py "urn:epc:id:sgtin:" ++ joinWith '.' [C, I, S]) = .ok x)
    (hy : LGTIN.new (py "urn:epc:class:lgtin:" ++ joinWith '.' [C, I, L]) = .ok y) (t : GtinType) :
    x.gs1Key t = y.gs1Key t ∧ x.gtin t = y.gtin t := by
  obtain ⟨i, I, rfl⟩ := sgtin_ref hC hI hx
  have e : x.gtin14 = y.gtin14 := (sgtin_gtin hC hI hx).1.trans (lgtin_gtin hC hI hy).symm
  unfold SGTIN.gs1Key LGTIN.gs1Key SGTIN.gtin LGTIN.gtin
  rw [e]
  exact ⟨rfl, rfl⟩

/-- UPUI: the element string of the product starts with its GTIN. -/
theorem C106_upui (C I S T : Str) (x : SGTIN) (y : UPUI) (hC : '.' ∉ C) (hI : '.' ∉ I)
    (hx : SGTIN.new (py "urn:epc:id:sgtin:" ++ joinWith '.' [C, I, S]) = .ok x)
    (hy : UPUI.new (py "urn:epc:id:upui:" ++ joinWith '.' [C, I, T]) = .ok y) :
    ∃ k, x.gs1Key = .ok k ∧ y.gs1ElementString = .ok (py "(01)" ++ k ++ py "(235)" ++ unescapeWith uriEscapes T) := by
  obtain ⟨i, I, rfl⟩ := sgtin_ref hC hI hx
  obtain ⟨e1, e2⟩ := sgtin_gtin hC hI hx
  refine ⟨x.gtin14, by show Except.ok (x.gtin14.take 14) = _; rw [List.take_of_length_le (Nat.le_of_eq e2)], ?_⟩
  obtain ⟨C', J, S', ⟨⟨_, hC'⟩, hI', _⟩, ⟨hl, _⟩, e, rfl⟩ := UPUI.new_iff.1 hy
  have e' : py "urn:epc:id:upui" ++ ':' :: (C ++ '.' :: ((i :: I) ++ '.' :: T)) = py "urn:epc:id:upui" ++ ':' :: (C' ++ '.' :: (J ++ '.' :: S')) := by
    rw [← e]; simp [joinWith]
  obtain ⟨rfl, rfl, rfl⟩ := uri3_inj hC hI hC'.no_dot hI'.no_dot e'
  have hI := Dec.cons.1 hI'
  have hd : Dec (i :: (C ++ I)) := Dec.cons.2 ⟨hI.1, Dec.append.2 ⟨hC', hI.2⟩⟩
  unfold UPUI.gs1ElementString
  dsimp only
  rw [show getIdx (i :: I) 0 = .ok i from rfl, ok_bind, show (i :: I).drop 1 = I from rfl, show i :: C ++ I = i :: (C ++ I) from rfl,
    checksum_dec hd, ok_bind, pure_ok, replaceUriEscapes_eq, e1]
  simp

/-- ITIP: the element string of a piece starts with the GTIN of the product, and piece and total follow.  (Piece and total of an ITIP have
together as many digits as are missing to 17; with an item reference that makes a GTIN these are four.) -/
theorem C106_itip (C I S A B T : Str) (x : SGTIN) (y : ITIP) (hC : '.' ∉ C) (hI : '.' ∉ I) (hA : '.' ∉ A) (hB : '.' ∉ B)
    (hx : SGTIN.new (py "urn:epc:id:sgtin:" ++ joinWith '.' [C, I, S]) = .ok x)
    (hy : ITIP.new (py "urn:epc:id:itip:" ++ joinWith '.' [C, I, A, B, T]) = .ok y) :
    A.length + B.length = 4 ∧
    ∃ k, x.gs1Key = .ok k ∧ y.gs1ElementString = .ok (py "(8006)" ++ k ++ A ++ B ++ py "(21)" ++ unescapeWith uriEscapes T) := by
  obtain ⟨i, I, rfl⟩ := sgtin_ref hC hI hx
  obtain ⟨e1, e2⟩ := sgtin_gtin hC hI hx
  obtain ⟨C', J, A', B', S', ⟨⟨_, hC'⟩, ⟨_, hI'⟩, ⟨_, hA'⟩, ⟨_, hB'⟩, _⟩, ⟨hl, _⟩, e, rfl⟩ := ITIP.new_iff.1 hy
  have e' : py "urn:epc:id:itip" ++ ':' :: (C ++ '.' :: ((i :: I) ++ '.' :: (A ++ '.' :: (B ++ '.' :: T)))) = py "urn:epc:id:itip" ++ ':' :: (C' ++ '.' :: (J ++ '.' :: (A' ++ '.' :: (B' ++ '.' :: S')))) := by
    rw [← e]; simp [joinWith]
  obtain ⟨rfl, rfl, e''⟩ := uri3_inj hC hI hC'.no_dot hI'.no_dot e'
  obtain ⟨rfl, e3⟩ := append_sep_inj hA hA'.no_dot e''
  obtain ⟨rfl, rfl⟩ := append_sep_inj hB hB'.no_dot e3
  refine ⟨?_, x.gtin14, by show Except.ok (x.gtin14.take 14) = _; rw [List.take_of_length_le (Nat.le_of_eq e2)], ?_⟩
  · rw [e1, List.length_append, length_natStr_uCheck] at e2
    simp only [List.length_append, List.length_cons] at hl e2
    omega
  have hI := Dec.cons.1 hI'
  have hd : Dec (i :: (C ++ I)) := Dec.cons.2 ⟨hI.1, Dec.append.2 ⟨hC', hI.2⟩⟩
  unfold ITIP.gs1ElementString
  dsimp only
  rw [show getIdx (i :: I) 0 = .ok i from rfl, ok_bind, show (i :: I).drop 1 = I from rfl, show i :: C ++ I = i :: (C ++ I) from rfl,
    checksum_dec hd, ok_bind, pure_ok, replaceUriEscapes_eq, e1]
  simp

/-- The same texts are accepted as SGTIN and as LGTIN. -/
theorem C106_lgtin_accepted (b : Str) :
    (∃ x, SGTIN.new (py "urn:epc:id:sgtin:" ++ b) = .ok x) ↔ ∃ y, LGTIN.new (py "urn:epc:class:lgtin:" ++ b) = .ok y := by
  have a := (C67_sgtin (py "urn:epc:id:sgtin:" ++ b)).1
  have b := (C67_lgtin (py "urn:epc:class:lgtin:" ++ b)).1
  simp only [List.append_cancel_left_eq] at a b
  exact a.trans b.symm

/-! Locations and parties: SGLN and PGLN -/

/-- The same location reference has the same GLN as a location, whatever the extension, and as a party. -/
theorem C106_pgln (C D S : Str) (x : SGLN) (y : PGLN) (hC : '.' ∉ C) (hD : '.' ∉ D)
    (hx : SGLN.new (py "urn:epc:id:sgln:" ++ joinWith '.' [C, D, S]) = .ok x)
    (hy : PGLN.new (py "urn:epc:id:pgln:" ++ joinWith '.' [C, D]) = .ok y) : x.gs1Key = y.gs1Key := by
  obtain ⟨C1, D1, S1, ⟨⟨_, hC1⟩, hD1, _⟩, _, e1, rfl⟩ := SGLN.new_iff.1 hx
  obtain ⟨C2, D2, ⟨⟨_, hC2⟩, hD2⟩, _, e2, rfl⟩ := PGLN.new_iff.1 hy
  have e1' : py "urn:epc:id:sgln" ++ ':' :: (C ++ '.' :: (D ++ '.' :: S)) = py "urn:epc:id:sgln" ++ ':' :: (C1 ++ '.' :: (D1 ++ '.' :: S1)) := by
    rw [← e1]; simp [joinWith]
  have e2' : py "urn:epc:id:pgln" ++ ':' :: (C ++ '.' :: D) = py "urn:epc:id:pgln" ++ ':' :: (C2 ++ '.' :: D2) := by
    rw [← e2]; simp [joinWith]
  obtain ⟨rfl, rfl, rfl⟩ := uri3_inj hC hD hC1.no_dot hD1.no_dot e1'
  obtain ⟨rfl, rfl⟩ := uri2_inj hC hC2.no_dot e2'
  rfl

/-- The same references are accepted for parties and, with the extension 0, for locations. -/
theorem C106_pgln_accepted (C D : Str) (hC : '.' ∉ C) (hD : '.' ∉ D) :
    (∃ x, SGLN.new (py "urn:epc:id:sgln:" ++ joinWith '.' [C, D, py "0"]) = .ok x) ↔
      ∃ y, PGLN.new (py "urn:epc:id:pgln:" ++ joinWith '.' [C, D]) = .ok y := by
  constructor
  · rintro ⟨x, hx⟩
    obtain ⟨C1, D1, S1, ⟨⟨h0, hC1⟩, hD1, _⟩, ⟨hl, h6, _⟩, e1, rfl⟩ := SGLN.new_iff.1 hx
    have e1' : py "urn:epc:id:sgln" ++ ':' :: (C ++ '.' :: (D ++ '.' :: py "0")) = py "urn:epc:id:sgln" ++ ':' :: (C1 ++ '.' :: (D1 ++ '.' :: S1)) := by
      rw [← e1]; simp [joinWith]
    obtain ⟨rfl, rfl, rfl⟩ := uri3_inj hC hD hC1.no_dot hD1.no_dot e1'
    exact ⟨_, PGLN.new_iff.2 ⟨C, D, ⟨⟨h0, hC1⟩, hD1⟩, ⟨hl, h6⟩, by simp [joinWith], rfl⟩⟩
  · rintro ⟨y, hy⟩
    obtain ⟨C2, D2, ⟨⟨h0, hC2⟩, hD2⟩, ⟨hl, h6⟩, e2, rfl⟩ := PGLN.new_iff.1 hy
    have e2' : py "urn:epc:id:pgln" ++ ':' :: (C ++ '.' :: D) = py "urn:epc:id:pgln" ++ ':' :: (C2 ++ '.' :: D2) := by
      rw [← e2]; simp [joinWith]
    obtain ⟨rfl, rfl⟩ := uri2_inj hC hC2.no_dot e2'
    refine ⟨_, SGLN.new_iff.2 ⟨C, D, py "0", ⟨⟨h0, hC2⟩, hD2, ?_⟩, ⟨hl, h6, ?_, ?_⟩, by simp [joinWith], rfl⟩⟩
    · exact (fullmatch_iff _ _).1 (by decide +kernel)
    · decide +kernel
    · decide +kernel

/-! Service relations: GSRN and GSRNP -/

/-- The number of a service relation is the same for the recipient and the provider, the same texts are accepted. -/
theorem C106_gsrnp (b : Str) :
    (∀ x y, GSRN.new (py "urn:epc:id:gsrn:" ++ b) = .ok x → GSRNP.new (py "urn:epc:id:gsrnp:" ++ b) = .ok y → x.gs1Key = y.gs1Key) ∧
    ((∃ x, GSRN.new (py "urn:epc:id:gsrn:" ++ b) = .ok x) ↔ ∃ y, GSRNP.new (py "urn:epc:id:gsrnp:" ++ b) = .ok y) := by
  refine ⟨?_, ?_, ?_⟩
  · intro x y hx hy
    obtain ⟨C1, D1, ⟨⟨_, hC1⟩, _⟩, _, e1, rfl⟩ := GSRN.new_iff.1 hx
    obtain ⟨C2, D2, ⟨⟨_, hC2⟩, _⟩, _, e2, rfl⟩ := GSRNP.new_iff.1 hy
    have f1 : b = C1 ++ '.' :: D1 := by
      have : py "urn:epc:id:gsrn:" ++ b = py "urn:epc:id:gsrn:" ++ (C1 ++ '.' :: D1) := e1.trans (by simp)
      exact List.append_cancel_left this
    have f2 : b = C2 ++ '.' :: D2 := by
      have : py "urn:epc:id:gsrnp:" ++ b = py "urn:epc:id:gsrnp:" ++ (C2 ++ '.' :: D2) := e2.trans (by simp)
      exact List.append_cancel_left this
    obtain ⟨rfl, rfl⟩ := append_sep_inj hC1.no_dot hC2.no_dot (f1.symm.trans f2)
    rfl
  · rintro ⟨x, hx⟩
    obtain ⟨C1, D1, h1, h2, e1, rfl⟩ := GSRN.new_iff.1 hx
    have f1 : b = C1 ++ '.' :: D1 := by
      have : py "urn:epc:id:gsrn:" ++ b = py "urn:epc:id:gsrn:" ++ (C1 ++ '.' :: D1) := e1.trans (by simp)
      exact List.append_cancel_left this
    exact ⟨_, GSRNP.new_iff.2 ⟨C1, D1, h1, h2, by rw [f1]; simp, rfl⟩⟩
  · rintro ⟨x, hx⟩
    obtain ⟨C1, D1, h1, h2, e1, rfl⟩ := GSRNP.new_iff.1 hx
    have f1 : b = C1 ++ '.' :: D1 := by
      have : py "urn:epc:id:gsrnp:" ++ b = py "urn:epc:id:gsrnp:" ++ (C1 ++ '.' :: D1) := e1.trans (by simp)
      exact List.append_cancel_left this
    exact ⟨_, GSRN.new_iff.2 ⟨C1, D1, h1, h2, by rw [f1]; simp, rfl⟩⟩

/-! The same, executed from the source. -/

namespace Src

private theorem outcome_ok' {α : Type} {sh : α → Val} {r : Except Err α} {v : Val} (h : outcome sh r = .ok v) : ∃ a, r = .ok a ∧ v = sh a := by
  cases r with
  | ok a => exact ⟨a, rfl, (Except.ok.inj h).symm⟩
  | error e => exact nomatch h

/-- Two objects with URIs that the classes accept and equal keys: `gs1_key` and `get_gs1_key` give the same. -/
private theorem same_key {c c' : Cls} {u u' : Str} (hc : c.isGs1Keyed = true) (hc' : c'.isGs1Keyed = true)
    (H : ∀ x y, c.new u = .ok x → c'.new u' = .ok y → ∀ t, x.gs1Key t = y.gs1Key t) (v w : Val)
    (hv : construct (clOf c) [.str u] = .ok v) (hw : construct (clOf c') [.str u'] = .ok w) (t : Option GtinType) :
    invoke v .gs1_key [] (keyKw t) = invoke w .gs1_key [] (keyKw t) ∧
    function .get_gs1_key [.str u] (keyKw t) = function .get_gs1_key [.str u'] (keyKw t) := by
  rw [(C91_constructors c u).1] at hv
  rw [(C91_constructors c' u').1] at hw
  obtain ⟨x, hx, rfl⟩ := outcome_ok' hv
  obtain ⟨y, hy, rfl⟩ := outcome_ok' hw
  have cx := (C38_accepted c u x hx).2.2
  have cy := (C38_accepted c' u' y hy).2.2
  have e := H x y hx hy t
  refine ⟨?_, ?_⟩
  · rw [C92_keys x t (cx ▸ hc), C92_keys y t (cy ▸ hc'), e]
  · have g : ∀ s : Str, function .get_gs1_key [.str s] (keyKw t) = outcome .str (getGs1Key s Option.none t) := fun s => C93_get_gs1_key s Option.none t
    rw [g, g, C40_uri c u x Option.none t hx hc, C40_uri c' u' y Option.none t hy hc', e]

/-- Products, locations and parties, service relations: `gs1_key()` of the objects and `get_gs1_key` of the URIs give the same. -/
theorem C106_source (C D S L : Str) (hC : '.' ∉ C) (hD : '.' ∉ D) (v w : Val) (t : Option GtinType) :
    (construct .SGTIN [.str (py "urn:epc:id:sgtin:" ++ joinWith '.' [C, D, S])] = .ok v →
      construct .LGTIN [.str (py "urn:epc:class:lgtin:" ++ joinWith '.' [C, D, L])] = .ok w →
      invoke v .gs1_key [] (keyKw t) = invoke w .gs1_key [] (keyKw t) ∧
      function .get_gs1_key [.str (py "urn:epc:id:sgtin:" ++ joinWith '.' [C, D, S])] (keyKw t) =
        function .get_gs1_key [.str (py "urn:epc:class:lgtin:" ++ joinWith '.' [C, D, L])] (keyKw t)) ∧
    (construct .SGLN [.str (py "urn:epc:id:sgln:" ++ joinWith '.' [C, D, S])] = .ok v →
      construct .PGLN [.str (py "urn:epc:id:pgln:" ++ joinWith '.' [C, D])] = .ok w →
      invoke v .gs1_key [] (keyKw t) = invoke w .gs1_key [] (keyKw t) ∧
      function .get_gs1_key [.str (py "urn:epc:id:sgln:" ++ joinWith '.' [C, D, S])] (keyKw t) =
        function .get_gs1_key [.str (py "urn:epc:id:pgln:" ++ joinWith '.' [C, D])] (keyKw t)) ∧
    (construct .GSRN [.str (py "urn:epc:id:gsrn:" ++ joinWith '.' [C, D])] = .ok v →
      construct .GSRNP [.str (py "urn:epc:id:gsrnp:" ++ joinWith '.' [C, D])] = .ok w →
      invoke v .gs1_key [] (keyKw t) = invoke w .gs1_key [] (keyKw t) ∧
      function .get_gs1_key [.str (py "urn:epc:id:gsrn:" ++ joinWith '.' [C, D])] (keyKw t) =
        function .get_gs1_key [.str (py "urn:epc:id:gsrnp:" ++ joinWith '.' [C, D])] (keyKw t)) := by
  refine ⟨fun hv hw => ?_, fun hv hw => ?_, fun hv hw => ?_⟩
  · refine same_key (c := .sgtin) (c' := .lgtin) rfl rfl (fun x y hx hy t => ?_) v w hv hw t
    obtain ⟨x, h1, rfl⟩ := map_ok_iff.1 hx
    obtain ⟨y, h2, rfl⟩ := map_ok_iff.1 hy
    exact (C106_lgtin C D S L x y hC hD h1 h2 _).1
  · refine same_key (c := .sgln) (c' := .pgln) rfl rfl (fun x y hx hy t => ?_) v w hv hw t
    obtain ⟨x, h1, rfl⟩ := map_ok_iff.1 hx
    obtain ⟨y, h2, rfl⟩ := map_ok_iff.1 hy
    show Scheme.noKwargs x.gs1Key t = Scheme.noKwargs y.gs1Key t
    rw [C106_pgln C D S x y hC hD h1 h2]
  · refine same_key (c := .gsrn) (c' := .gsrnp) rfl rfl (fun x y hx hy t => ?_) v w hv hw t
    obtain ⟨x, h1, rfl⟩ := map_ok_iff.1 hx
    obtain ⟨y, h2, rfl⟩ := map_ok_iff.1 hy
    show Scheme.noKwargs x.gs1Key t = Scheme.noKwargs y.gs1Key t
    rw [(C106_gsrnp (joinWith '.' [C, D])).1 x y h1 h2]

/-- The element strings of UPUI and ITIP contain the GTIN of the product. -/
theorem C106_element_source (C D S A B T : Str) (hC : '.' ∉ C) (hD : '.' ∉ D) (hA : '.' ∉ A) (hB : '.' ∉ B) (v w : Val)
    (hv : construct .SGTIN [.str (py "urn:epc:id:sgtin:" ++ joinWith '.' [C, D, S])] = .ok v) :
    ∃ k, invoke v .gs1_key [] [] = .ok (.str k) ∧
    (construct .UPUI [.str (py "urn:epc:id:upui:" ++ joinWith '.' [C, D, T])] = .ok w →
      invoke w .gs1_element_string [] [] = .ok (.str (py "(01)" ++ k ++ py "(235)" ++ unescapeWith uriEscapes T))) ∧
    (construct .ITIP [.str (py "urn:epc:id:itip:" ++ joinWith '.' [C, D, A, B, T])] = .ok w →
      invoke w .gs1_element_string [] [] = .ok (.str (py "(8006)" ++ k ++ A ++ B ++ py "(21)" ++ unescapeWith uriEscapes T))) := by
  obtain ⟨s, hs, rfl⟩ := outcome_ok' ((C91_constructors .sgtin _).1.symm.trans hv)
  obtain ⟨x, hx, rfl⟩ := map_ok_iff.1 hs
  obtain ⟨i, I, rfl⟩ := sgtin_ref hC hD hx
  obtain ⟨e1, e2⟩ := sgtin_gtin hC hD hx
  have hk : x.gs1Key = .ok x.gtin14 := by show Except.ok (x.gtin14.take 14) = _; rw [List.take_of_length_le (Nat.le_of_eq e2)]
  refine ⟨x.gtin14, ?_, fun hw => ?_, fun hw => ?_⟩
  · have := C92_keys (.sgtin x) Option.none rfl
    rw [show (Scheme.sgtin x).gs1Key Option.none = .ok x.gtin14 from hk] at this
    exact this
  · obtain ⟨s', hs', rfl⟩ := outcome_ok' ((C91_constructors .upui _).1.symm.trans hw)
    obtain ⟨y, hy, rfl⟩ := map_ok_iff.1 hs'
    obtain ⟨k, h1, h2⟩ := C106_upui C (i :: I) S T x y hC hD hx hy
    rw [hk] at h1
    cases h1
    have := C92_element_strings (.upui y) rfl
    rw [show (Scheme.upui y).gs1ElementString = _ from h2] at this
    exact this
  · obtain ⟨s', hs', rfl⟩ := outcome_ok' ((C91_constructors .itip _).1.symm.trans hw)
    obtain ⟨y, hy, rfl⟩ := map_ok_iff.1 hs'
    obtain ⟨_, k, h1, h2⟩ := C106_itip C (i :: I) S A B T x y hC hD hA hB hx hy
    rw [hk] at h1
    cases h1
    have := C92_element_strings (.itip y) rfl
    rw [show (Scheme.itip y).gs1ElementString = _ from h2] at this
    exact this

end Src

/-! Examples -/

example : ∃ x y z w k, SGTIN.new (py "urn:epc:id:sgtin:9521141.012345.4711") = .ok x ∧ LGTIN.new (py "urn:epc:class:lgtin:9521141.012345.1") = .ok y ∧
    UPUI.new (py "urn:epc:id:upui:9521141.012345.51qIgY") = .ok z ∧ ITIP.new (py "urn:epc:id:itip:9521141.012345.04.04.0") = .ok w ∧
    x.gs1Key = .ok k ∧ k = py "09521141123454" ∧ y.gs1Key = .ok k ∧ z.gs1ElementString = .ok (py "(01)09521141123454(235)51qIgY") ∧
    w.gs1ElementString = .ok (py "(8006)095211411234540404(21)0") :=
  ⟨_, _, _, _, _, by rfl, by rfl, by rfl, by rfl, by rfl, by decide +kernel, by decide +kernel, by decide +kernel, by decide +kernel⟩

example : ∃ x y k, SGLN.new (py "urn:epc:id:sgln:9521141.12345.400") = .ok x ∧ PGLN.new (py "urn:epc:id:pgln:9521141.12345") = .ok y ∧
    x.gs1Key = k ∧ y.gs1Key = k ∧ k = py "9521141123454" :=
  ⟨_, _, _, by rfl, by rfl, rfl, by decide +kernel, by decide +kernel⟩

end Epc
