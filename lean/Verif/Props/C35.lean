/-
C35: SGTIN from a GTIN and a serial.
Generated by tools/gen_c33.py.
-/
import Verif.Lemmas.Key

namespace Epc
open Spec

/-- An accepted SGTIN is rebuilt from its GTIN, its serial and the length of its company prefix. -/
theorem C35_rebuild (u : Str) (x : SGTIN) (hu : SGTIN.new u = .ok x) :
    ∃ g, x.gtin = .ok g ∧ SGTIN.fromGtinPlusSerial g x.serial x.companyPref.length = .ok x := by
  obtain ⟨i, I, e, hk⟩ := SGTIN.key hu
  have hl := hk.2.1
  refine ⟨x.gtin14, ?_, ?_⟩
  · show Except.ok (x.gtin14.take 14) = _
    rw [List.take_of_length_le (Nat.le_of_eq hl)]
  obtain ⟨⟨c, ec⟩, _, hd, _⟩ := hk
  have hd' : Dec x.gtin14 := (uDigits_iff _).1 hd
  have hlen : x.companyPref.length + I.length + 2 = 14 := by
    rw [ec] at hl; simp at hl; omega
  unfold SGTIN.fromGtinPlusSerial
  dsimp only
  rw [zfill_dec hd', padLeft_of_le (by omega), ec]
  have hcut := uncut_key (i := i) (C := x.companyPref) (D := I) (k := c) (n := (x.companyPref.length : Int)) (clampIdx_one_add (by omega))
  rw [show i :: (x.companyPref ++ I) ++ [c] = i :: (x.companyPref ++ (I ++ [c])) by simp]
  rw [hcut.1, hcut.2, show getIdx (i :: (x.companyPref ++ (I ++ [c]))) 0 = .ok i from rfl, ok_bind]
  obtain ⟨C, I', S, _, _, rfl, rfl⟩ := SGTIN.new_iff.1 hu
  dsimp only at e ⊢
  subst e
  rw [← hu]
  congr 1
  simp

/-- Whatever GTIN of at most 14 digits, serial and company prefix length are passed: if an object is returned, its GTIN is the
given one (padded with zeros to 14 digits) with the check digit put right, and it is the given one if its check digit is right. -/
theorem C35_gtin (g s : Str) (n : Int) (y : SGTIN) (hg : Digits g) (hl : g.length ≤ 14) (h : SGTIN.fromGtinPlusSerial g s n = .ok y) :
    ∃ t, y.gtin = .ok t ∧ Corrected [] 13 (List.replicate (14 - g.length) '0' ++ g) t ∧
      (CheckDigitOk (List.replicate (14 - g.length) '0' ++ g) → t = List.replicate (14 - g.length) '0' ++ g) := by
  unfold SGTIN.fromGtinPlusSerial at h
  dsimp only at h
  rw [zfill_dec (dec_of_digits hg), show padLeft '0' 14 g = List.replicate (14 - g.length) '0' ++ g from rfl] at h
  generalize hG : List.replicate (14 - g.length) '0' ++ g = G at h ⊢
  have hGd : Digits G := by
    rw [← hG]
    intro c hc
    rcases List.mem_append.1 hc with hc | hc
    · rw [(List.mem_replicate.1 hc).2]; decide
    · exact hg c hc
  have hGl : G.length = 14 := by rw [← hG, List.length_append, List.length_replicate]; omega
  have hGdec := dec_of_digits hGd
  cases G with
  | nil => cases hGl
  | cons i d => ?_
  rw [show getIdx (i :: d) 0 = .ok i from rfl, ok_bind] at h
  have h0 : SGTIN.new (py "urn:epc:id:sgtin" ++ ':' :: (sliceI (i :: d) 1 (1 + n) ++ '.' ::
      ((i :: sliceI (i :: d) (1 + n) (-1)) ++ '.' :: s))) = .ok y := by
    rw [← h]; congr 1; simp
  obtain ⟨C', I', S', ⟨⟨_, h1⟩, ⟨_, h2⟩, _⟩, h3, e, ey⟩ := SGTIN.new_iff.1 h0
  have hi := (Dec.cons.1 hGdec).1
  have hinj := uri3_inj (Dec.no_dot (dec_slice hGdec _ _)) (Dec.no_dot (Dec.cons.2 ⟨hi, dec_slice hGdec _ _⟩)) h1.no_dot
    h2.no_dot e
  have e1 : sliceI (i :: d) 1 (1 + n) = C' := hinj.1
  have e2 : i :: sliceI (i :: d) (1 + n) (-1) = I' := hinj.2.1
  have e3 : s = S' := hinj.2.2
  clear hinj
  have hsum : (sliceI (i :: d) 1 (1 + n)).length + (i :: sliceI (i :: d) (1 + n) (-1)).length = 13 := by
    rw [e1, e2]; exact h3.1
  obtain ⟨⟨k, hcut⟩, _⟩ := cut_key (N := 13) hGl (by decide) hsum
  generalize sliceI (i :: d) 1 (1 + n) = C at h0 e1 e2 e ey hsum hcut
  generalize sliceI (i :: d) (1 + n) (-1) = I at h0 e1 e2 e ey hsum hcut
  subst e1 e2 e3 ey
  rw [List.length_cons] at hsum
  obtain ⟨i', I'', e', hk⟩ := SGTIN.key h0
  dsimp only at e' hk
  injection e' with ei eI
  subst ei eI
  have hkl := hk.2.1
  have hkc := hk
  have hcor := corrected (p := []) (body := i :: (C ++ I)) (rest := []) (s := i :: d) (k := k) (n := 13)
    (t := i :: (C ++ I) ++ natStr (uCheck (i :: (C ++ I)))) (by simp; omega)
    (by rw [show i :: (C ++ I) ++ [k] = i :: d by rw [hcut]; simp]; exact hGdec) (ascii_of_digits hGd)
    (by rw [hcut]; simp) (by simp)
  have hty : padLeft '0' 14 (keyBody C (i :: I) ++ natStr (uCheck (keyBody C (i :: I)))) = i :: (C ++ I) ++ natStr (uCheck (i :: (C ++ I))) := by
    rw [show keyBody C (i :: I) = i :: (C ++ I) from rfl]
    exact padLeft_of_le (by rw [List.length_append, length_natStr_uCheck]; simp; omega)
  rw [hty] at hkl
  refine ⟨_, ?_, hcor.1, ?_⟩
  · show Except.ok (slice _ 0 14) = _
    rw [hty]
    show Except.ok (List.take 14 _) = _
    rw [List.take_of_length_le (Nat.le_of_eq hkl)]
  · intro hok
    refine hcor.2 ?_
    rw [show (i :: d).drop ([] : Str).length = i :: d from rfl, List.take_of_length_le (by omega)]
    exact hok

/-- The wrong check digit 0 is put right. -/
example : ((SGTIN.fromGtinPlusSerial (py "9521141123450") (py "32a") 7).toOption.map (·.gtin)) = some (.ok (py "09521141123454")) := by decide +kernel

example : ((SGTIN.fromGtinPlusSerial (py "09521141123454") (py "32a%2Fb") 7).toOption.map (·.epcUri)) =
    some (py "urn:epc:id:sgtin:9521141.012345.32a%2Fb") := by decide +kernel

end Epc
