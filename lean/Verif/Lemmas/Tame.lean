/-
Which errors the parsers can raise.  Generated by tools/gen_tame.py.
-/
import Verif.Lemmas.ElemParse
import Verif.Lemmas.Verify
import Verif.Lemmas.TagUri
import Verif.Lemmas.NewMore
import Verif.Lemmas.Dispatch

namespace Epc
open Re Spec

/-- The only errors are `ConvertException`, `ValueError` and `OverflowError`. -/
def Tame {α : Type} (r : Except Err α) : Prop := ∀ e, r = .error e → e = .convert ∨ e = .value ∨ e = .overflow

theorem Tame.ok {α : Type} (a : α) : Tame (.ok a : Except Err α) := fun _ h => by cases h
theorem Tame.pure {α : Type} (a : α) : Tame (Pure.pure a : Except Err α) := fun _ h => by cases h
theorem Tame.convert {α : Type} : Tame (.error .convert : Except Err α) := fun _ h => by cases h; exact .inl rfl
theorem Tame.value {α : Type} : Tame (.error .value : Except Err α) := fun _ h => by cases h; exact .inr (.inl rfl)

theorem Tame.bind {α β : Type} {x : Except Err α} {f : α → Except Err β} (hx : Tame x) (hf : ∀ a, x = .ok a → Tame (f a)) : Tame (x >>= f) := by
  intro e h
  rcases bind_error_iff.1 h with h | ⟨a, ha, h⟩
  · exact hx e h
  · exact hf a ha e h

theorem Tame.map {α β : Type} {x : Except Err α} {f : α → β} (hx : Tame x) : Tame (x.map f) := by
  cases x with
  | ok a => exact Tame.ok _
  | error e => intro e' h; cases h; exact hx e rfl

theorem Tame.mapM {α β : Type} {f : α → Except Err β} {l : List α} (hf : ∀ a ∈ l, Tame (f a)) : Tame (l.mapM f) := by
  intro e h
  obtain ⟨a, ha, h⟩ := mapM_error h
  exact hf a ha e h

theorem Tame.guard (c : Bool) : Tame (guardConvert c) := by
  intro e h
  exact .inl (guard_error_iff.1 h).2

theorem Tame.int (b : Nat) (s : Str) : Tame (pyInt b s) := fun _ h => .inr (.inl (pyInt_error h))
theorem Tame.chr (i : Int) : Tame (Epc.chr i) := fun _ h => .inr (chr_error h)
theorem Tame.verify (s : Str) : Tame (verifyGs3a3 s) := fun _ h => verify_error h
theorem Tame.unpack2 (l : List Str) : Tame (Epc.unpack2 l) := by unfold Epc.unpack2; split <;> first | exact Tame.ok _ | exact Tame.value
theorem Tame.unpack3 (l : List Str) : Tame (Epc.unpack3 l) := by unfold Epc.unpack3; split <;> first | exact Tame.ok _ | exact Tame.value
theorem Tame.unpack2s (l : List Str) : Tame (Epc.unpack2s l) := by unfold Epc.unpack2s; split <;> first | exact Tame.ok _ | exact Tame.value
theorem Tame.binInt (s : Str) : Tame (binaryToInt s) := by
  unfold binaryToInt
  exact Tame.int 2 _
theorem Tame.binIntStr (s : Str) : Tame (Epc.binIntStr s) := by
  unfold Epc.binIntStr
  exact Tame.bind (Tame.binInt s) fun _ _ => Tame.pure _

theorem ADI.new_tame (u : Str) : Tame (ADI.new u) := by
  intro e h
  exact .inl (ADI.new_error h)

theorem BIC.new_tame (u : Str) : Tame (BIC.new u) := by
  intro e h
  exact .inl (BIC.new_error h)

theorem CPI.new_tame (u : Str) : Tame (CPI.new u) := by
  intro e h
  exact .inl (CPI.new_error h)

theorem GDTI.new_tame (u : Str) : Tame (GDTI.new u) := by
  intro e h
  rcases GDTI.new_error h with rfl | ⟨_, _, _, _, _, hv⟩
  · exact .inl rfl
  · exact verify_error hv

theorem GIAI.new_tame (u : Str) : Tame (GIAI.new u) := by
  intro e h
  rcases GIAI.new_error h with rfl | ⟨_, _, _, _, hv⟩
  · exact .inl rfl
  · exact verify_error hv

theorem GID.new_tame (u : Str) : Tame (GID.new u) := by
  intro e h
  exact .inl (GID.new_error h)

theorem GINC.new_tame (u : Str) : Tame (GINC.new u) := by
  intro e h
  rcases GINC.new_error h with rfl | ⟨_, _, _, _, hv⟩
  · exact .inl rfl
  · exact verify_error hv

theorem GRAI.new_tame (u : Str) : Tame (GRAI.new u) := by
  intro e h
  rcases GRAI.new_error h with rfl | ⟨_, _, _, _, _, hv⟩
  · exact .inl rfl
  · exact verify_error hv

theorem GSIN.new_tame (u : Str) : Tame (GSIN.new u) := by
  intro e h
  exact .inl (GSIN.new_error h)

theorem GSRN.new_tame (u : Str) : Tame (GSRN.new u) := by
  intro e h
  exact .inl (GSRN.new_error h)

theorem GSRNP.new_tame (u : Str) : Tame (GSRNP.new u) := by
  intro e h
  exact .inl (GSRNP.new_error h)

theorem IMOVN.new_tame (u : Str) : Tame (IMOVN.new u) := by
  intro e h
  exact .inl (IMOVN.new_error h)

theorem ITIP.new_tame (u : Str) : Tame (ITIP.new u) := by
  intro e h
  rcases ITIP.new_error h with rfl | ⟨_, _, _, _, _, _, _, hv⟩
  · exact .inl rfl
  · exact verify_error hv

theorem LGTIN.new_tame (u : Str) : Tame (LGTIN.new u) := by
  intro e h
  rcases LGTIN.new_error h with rfl | ⟨_, _, _, _, _, hv⟩
  · exact .inl rfl
  · exact verify_error hv

theorem PGLN.new_tame (u : Str) : Tame (PGLN.new u) := by
  intro e h
  exact .inl (PGLN.new_error h)

theorem SGCN.new_tame (u : Str) : Tame (SGCN.new u) := by
  intro e h
  exact .inl (SGCN.new_error h)

theorem SGLN.new_tame (u : Str) : Tame (SGLN.new u) := by
  intro e h
  rcases SGLN.new_error h with rfl | ⟨_, _, _, _, _, hv⟩
  · exact .inl rfl
  · exact verify_error hv

theorem SGTIN.new_tame (u : Str) : Tame (SGTIN.new u) := by
  intro e h
  rcases SGTIN.new_error h with rfl | ⟨_, _, _, _, _, hv⟩
  · exact .inl rfl
  · exact verify_error hv

theorem SSCC.new_tame (u : Str) : Tame (SSCC.new u) := by
  intro e h
  exact .inl (SSCC.new_error h)

theorem UPUI.new_tame (u : Str) : Tame (UPUI.new u) := by
  intro e h
  rcases UPUI.new_error h with rfl | ⟨_, _, _, _, _, hv⟩
  · exact .inl rfl
  · exact verify_error hv

theorem USDOD.new_tame (u : Str) : Tame (USDOD.new u) := by
  intro e h
  exact .inl (USDOD.new_error h)

theorem fromTagUri_tame {α : Type} {new : Str → Except Err α} (hn : ∀ u, Tame (new u)) (b : Bool) (t : Str) : Tame (Epc.fromTagUri new b t) := by
  cases hm : Rx.tagUri.matchPrefix t with
  | false => rw [fromTagUri_nomatch hm]; exact Tame.convert
  | true =>
    obtain ⟨n, r, hn', rfl, -⟩ := tagUri_match hm
    have hc := (tagNames_facts hn').1
    have hs : split ':' (tagUriPrefix ++ n ++ ':' :: r) = [py "urn", py "epc", py "tag"] ++ n :: split ':' r := by
      show split ':' (py "urn:epc:tag:" ++ n ++ ':' :: r) = _
      have e : py "urn:epc:tag:" ++ n ++ ':' :: r = py "urn:epc:" ++ py "tag" ++ ':' :: (n ++ ':' :: r) := by simp
      rw [e, split_urn _ _ _ (by decide) hc]
      rfl
    unfold Epc.fromTagUri
    rw [hm, hs]
    simp only [Bool.not_true, Bool.false_eq_true, if_false]
    obtain ⟨p, q, hpq⟩ : ∃ p q, split ':' r = p :: q := by
      cases h : split ':' r with
      | nil => exact absurd h (split_ne_nil _ _)
      | cons p q => exact ⟨p, q, rfl⟩
    rw [hpq]
    obtain ⟨p', q', hpq'⟩ : ∃ p q, split '-' n = p :: q := by
      cases h : split '-' n with
      | nil => exact absurd h (split_ne_nil _ _)
      | cons p q => exact ⟨p, q, rfl⟩
    rw [getPart_ok (s := n) rfl, ok_bind, hpq']
    cases b <;> simp only [Bool.false_eq_true, if_false, if_true]
    · rw [getPart_ok (s := p) rfl, ok_bind, getPart_ok (s := p') rfl, ok_bind]
      exact hn _
    · rw [ok_bind, getPart_ok (s := p') rfl, ok_bind]
      exact hn _

theorem ADI.fromTagUri_tame (t : Str) : Tame (ADI.fromTagUri t) := Epc.fromTagUri_tame ADI.new_tame _ t
theorem CPI.fromTagUri_tame (t : Str) : Tame (CPI.fromTagUri t) := Epc.fromTagUri_tame CPI.new_tame _ t
theorem GDTI.fromTagUri_tame (t : Str) : Tame (GDTI.fromTagUri t) := Epc.fromTagUri_tame GDTI.new_tame _ t
theorem GIAI.fromTagUri_tame (t : Str) : Tame (GIAI.fromTagUri t) := Epc.fromTagUri_tame GIAI.new_tame _ t
theorem GID.fromTagUri_tame (t : Str) : Tame (GID.fromTagUri t) := Epc.fromTagUri_tame GID.new_tame _ t
theorem GRAI.fromTagUri_tame (t : Str) : Tame (GRAI.fromTagUri t) := Epc.fromTagUri_tame GRAI.new_tame _ t
theorem GSRN.fromTagUri_tame (t : Str) : Tame (GSRN.fromTagUri t) := Epc.fromTagUri_tame GSRN.new_tame _ t
theorem GSRNP.fromTagUri_tame (t : Str) : Tame (GSRNP.fromTagUri t) := Epc.fromTagUri_tame GSRNP.new_tame _ t
theorem ITIP.fromTagUri_tame (t : Str) : Tame (ITIP.fromTagUri t) := Epc.fromTagUri_tame ITIP.new_tame _ t
theorem SGCN.fromTagUri_tame (t : Str) : Tame (SGCN.fromTagUri t) := Epc.fromTagUri_tame SGCN.new_tame _ t
theorem SGLN.fromTagUri_tame (t : Str) : Tame (SGLN.fromTagUri t) := Epc.fromTagUri_tame SGLN.new_tame _ t
theorem SGTIN.fromTagUri_tame (t : Str) : Tame (SGTIN.fromTagUri t) := Epc.fromTagUri_tame SGTIN.new_tame _ t
theorem SSCC.fromTagUri_tame (t : Str) : Tame (SSCC.fromTagUri t) := Epc.fromTagUri_tame SSCC.new_tame _ t
theorem USDOD.fromTagUri_tame (t : Str) : Tame (USDOD.fromTagUri t) := Epc.fromTagUri_tame USDOD.new_tame _ t

theorem parseHeader_tame {κ : Type} {headers : List (Str × κ)} {value : κ → Str} {b : Str}
    (h : b.take 8 ∈ headers.map (·.1)) : Tame (parseHeader headers value b) := by
  unfold parseHeader
  split
  · rename_i hl
    rw [List.lookup_eq_none_iff] at hl
    obtain ⟨p, hp, e⟩ := List.mem_map.1 h
    have := hl p hp
    rw [e] at this
    simp at this
  · split
    · split
      · refine Tame.bind (Tame.int _ _) fun n _ => ?_
        split
        · exact Tame.convert
        · exact Tame.pure _
      · exact Tame.ok _
    · exact Tame.value

theorem parseHeader_key {κ : Type} {headers : List (Str × κ)} {value : κ → Str} {b : Str}
    (h : b.take 8 ∉ headers.map (·.1)) : parseHeader headers value b = .error .key := by
  have hl : headers.lookup (b.take 8) = Option.none := by
    rw [List.lookup_eq_none_iff]
    intro p hp
    simp only [bne_iff_ne, ne_eq]
    intro e
    exact h (List.mem_map.2 ⟨p, hp, e.symm⟩)
  unfold parseHeader
  rw [hl]

theorem decodeString_tame (s : Str) : Tame (decodeString s) := by
  unfold decodeString
  refine Tame.bind (Tame.mapM fun g _ => ?_) fun _ _ => Tame.pure _
  unfold decodeBinaryChar
  split
  · exact Tame.ok _
  · split
    · exact Tame.ok _
    · exact Tame.bind (Tame.int _ _) fun _ _ => Tame.bind (Tame.chr _) fun _ _ => Tame.pure _

theorem decodeStringSixBits_tame (s : Str) (n : Nat) : Tame (decodeStringSixBits s n) := by
  have hl : ∀ l, Tame (decodeSixLoop l) := by
    intro l
    induction l with
    | nil => exact Tame.ok _
    | cons g gs ih =>
      unfold decodeSixLoop
      split
      · exact Tame.ok _
      · split
        · exact ih
        · split <;> exact Tame.bind (Tame.int _ _) fun _ _ => Tame.bind (Tame.chr _) fun _ _ => Tame.bind ih fun _ _ => Tame.pure _
  unfold decodeStringSixBits
  refine Tame.bind (hl _) fun r _ => ?_
  split
  · exact Tame.convert
  · exact Tame.pure _

theorem keyToConvert_rowByP_tame (t : List Row) (i : Int) : Tame (keyToConvert (rowByP t i)) := by
  unfold rowByP
  split
  · exact Tame.ok _
  · exact Tame.convert

theorem decodePartitionTable_tame (b : Str) (t : List Row) (m : PartMode) : Tame (decodePartitionTable b t m) := by
  unfold decodePartitionTable
  refine Tame.bind (Tame.binInt _) fun p _ => Tame.bind (keyToConvert_rowByP_tame _ _) fun row _ => Tame.bind (Tame.binInt _) fun C _ => ?_
  refine Tame.bind ?_ fun D _ => ?_
  · unfold decodeRef
    split
    · exact decodeString_tame _
    · exact decodeStringSixBits_tame _ _
    · split
      · exact Tame.bind (Tame.binInt _) fun _ _ => Tame.pure _
      · exact Tame.ok _
  · dsimp only
    split
    · exact Tame.convert
    · refine Tame.bind ?_ fun l _ => ?_
      · unfold refTooLarge
        split
        · exact Tame.bind (Tame.int _ _) fun _ _ => Tame.pure _
        · exact Tame.ok _
      · split
        · exact Tame.convert
        · exact Tame.pure _

theorem decodeNumericString_tame (s : Str) : Tame (decodeNumericString s) := by
  unfold decodeNumericString
  refine Tame.bind (Tame.int _ _) fun i _ => ?_
  dsimp only
  split
  · exact Tame.convert
  · exact Tame.pure _

theorem decodeFixedWidthInteger_tame (s : Str) : Tame (decodeFixedWidthInteger s) := by
  unfold decodeFixedWidthInteger
  refine Tame.bind (Tame.int _ _) fun i _ => ?_
  split
  · exact Tame.convert
  · exact Tame.pure _

theorem decodeCageCode_tame (s : Str) : Tame (decodeCageCode s) := by
  unfold decodeCageCode
  refine Tame.bind (Tame.mapM fun g _ => ?_) fun _ _ => Tame.pure _
  split
  · exact Tame.ok _
  · exact Tame.bind (Tame.int _ _) fun _ _ => Tame.bind (Tame.chr _) fun _ _ => Tame.pure _

theorem decodeCageCodeSixBits_tame (s : Str) : Tame (decodeCageCodeSixBits s) := by
  unfold decodeCageCodeSixBits
  exact decodeStringSixBits_tame _ _

theorem CPI.decodeParts_tame (cs : CPI.Coding) (b : Str) : Tame (CPI.decodeParts cs b) := by
  unfold CPI.decodeParts
  split
  · exact Tame.bind (decodePartitionTable_tame _ _ _) fun _ _ => Tame.pure _
  · dsimp only
    refine Tame.bind (decodePartitionTable_tame _ _ _) fun cpi h => ?_
    refine Tame.bind (Tame.binInt _) fun p hp => Tame.bind ?_ fun row _ => Tame.pure _
    unfold decodePartitionTable at h
    rw [hp, ok_bind] at h
    obtain ⟨row, hr, -⟩ := bind_ok_iff.1 h
    unfold rowByP at hr ⊢
    split at hr
    · exact Tame.ok _
    · cases hr

theorem ADI.fromBinary_tame {b : Str} (h : b.take 8 ∈ ADI.headers.map (·.1)) : Tame (ADI.fromBinary b) := by
  unfold ADI.fromBinary
  refine Tame.bind (parseHeader_tame h) fun p _ => ?_
  obtain ⟨cs, b'⟩ := p
  dsimp only
  exact Tame.bind (Tame.guard _) fun _ _ => Tame.bind (Tame.unpack2s _) fun ⟨p, _, r⟩ _ => Tame.bind (Tame.binInt _) fun _ _ => Tame.bind (decodeCageCodeSixBits_tame _) fun _ _ => Tame.bind (decodeStringSixBits_tame _ _) fun _ _ => Tame.bind (decodeStringSixBits_tame _ _) fun _ _ => ADI.fromTagUri_tame _

theorem ADI.fromBinary_key {b : Str} (h : b.take 8 ∉ ADI.headers.map (·.1)) : ADI.fromBinary b = .error .key := by
  unfold ADI.fromBinary
  rw [parseHeader_key h]
  rfl

theorem CPI.fromBinary_tame {b : Str} (h : b.take 8 ∈ CPI.headers.map (·.1)) : Tame (CPI.fromBinary b) := by
  unfold CPI.fromBinary
  refine Tame.bind (parseHeader_tame h) fun p _ => ?_
  obtain ⟨cs, b'⟩ := p
  dsimp only
  exact Tame.bind (CPI.decodeParts_tame _ _) fun ⟨_, _⟩ _ => Tame.bind (Tame.binInt _) fun _ _ => Tame.bind (Tame.binIntStr _) fun _ _ => CPI.fromTagUri_tame _

theorem CPI.fromBinary_key {b : Str} (h : b.take 8 ∉ CPI.headers.map (·.1)) : CPI.fromBinary b = .error .key := by
  unfold CPI.fromBinary
  rw [parseHeader_key h]
  rfl

theorem GDTI.fromBinary_tame {b : Str} (h : b.take 8 ∈ GDTI.headers.map (·.1)) : Tame (GDTI.fromBinary b) := by
  unfold GDTI.fromBinary
  refine Tame.bind (parseHeader_tame h) fun p _ => ?_
  obtain ⟨cs, b'⟩ := p
  dsimp only
  refine Tame.bind (Tame.binInt _) fun _ _ => Tame.bind (decodePartitionTable_tame _ _ _) fun _ _ => ?_
  split
  · exact Tame.bind (Tame.binIntStr _) fun _ _ => GDTI.fromTagUri_tame _
  · exact Tame.bind (decodeString_tame _) fun _ _ => GDTI.fromTagUri_tame _

theorem GDTI.fromBinary_key {b : Str} (h : b.take 8 ∉ GDTI.headers.map (·.1)) : GDTI.fromBinary b = .error .key := by
  unfold GDTI.fromBinary
  rw [parseHeader_key h]
  rfl

theorem GIAI.fromBinary_tame {b : Str} (h : b.take 8 ∈ GIAI.headers.map (·.1)) : Tame (GIAI.fromBinary b) := by
  unfold GIAI.fromBinary
  refine Tame.bind (parseHeader_tame h) fun p _ => ?_
  obtain ⟨cs, b'⟩ := p
  dsimp only
  refine Tame.bind (Tame.binInt _) fun _ _ => ?_
  split <;> exact Tame.bind (decodePartitionTable_tame _ _ _) fun _ _ => GIAI.fromTagUri_tame _

theorem GIAI.fromBinary_key {b : Str} (h : b.take 8 ∉ GIAI.headers.map (·.1)) : GIAI.fromBinary b = .error .key := by
  unfold GIAI.fromBinary
  rw [parseHeader_key h]
  rfl

theorem GID.fromBinary_tame {b : Str} (h : b.take 8 ∈ GID.headers.map (·.1)) : Tame (GID.fromBinary b) := by
  unfold GID.fromBinary
  refine Tame.bind (parseHeader_tame h) fun p _ => ?_
  obtain ⟨cs, b'⟩ := p
  dsimp only
  exact Tame.bind (Tame.binIntStr _) fun _ _ => Tame.bind (Tame.binIntStr _) fun _ _ => Tame.bind (Tame.binIntStr _) fun _ _ => GID.fromTagUri_tame _

theorem GID.fromBinary_key {b : Str} (h : b.take 8 ∉ GID.headers.map (·.1)) : GID.fromBinary b = .error .key := by
  unfold GID.fromBinary
  rw [parseHeader_key h]
  rfl

theorem GRAI.fromBinary_tame {b : Str} (h : b.take 8 ∈ GRAI.headers.map (·.1)) : Tame (GRAI.fromBinary b) := by
  unfold GRAI.fromBinary
  refine Tame.bind (parseHeader_tame h) fun p _ => ?_
  obtain ⟨cs, b'⟩ := p
  dsimp only
  refine Tame.bind (Tame.binInt _) fun _ _ => Tame.bind (decodePartitionTable_tame _ _ _) fun _ _ => ?_
  split
  · exact Tame.bind (Tame.binIntStr _) fun _ _ => GRAI.fromTagUri_tame _
  · exact Tame.bind (decodeString_tame _) fun _ _ => GRAI.fromTagUri_tame _

theorem GRAI.fromBinary_key {b : Str} (h : b.take 8 ∉ GRAI.headers.map (·.1)) : GRAI.fromBinary b = .error .key := by
  unfold GRAI.fromBinary
  rw [parseHeader_key h]
  rfl

theorem GSRN.fromBinary_tame {b : Str} (h : b.take 8 ∈ GSRN.headers.map (·.1)) : Tame (GSRN.fromBinary b) := by
  unfold GSRN.fromBinary
  refine Tame.bind (parseHeader_tame h) fun p _ => ?_
  obtain ⟨cs, b'⟩ := p
  dsimp only
  exact Tame.bind (Tame.binInt _) fun _ _ => Tame.bind (decodePartitionTable_tame _ _ _) fun _ _ => GSRN.fromTagUri_tame _

theorem GSRN.fromBinary_key {b : Str} (h : b.take 8 ∉ GSRN.headers.map (·.1)) : GSRN.fromBinary b = .error .key := by
  unfold GSRN.fromBinary
  rw [parseHeader_key h]
  rfl

theorem GSRNP.fromBinary_tame {b : Str} (h : b.take 8 ∈ GSRNP.headers.map (·.1)) : Tame (GSRNP.fromBinary b) := by
  unfold GSRNP.fromBinary
  refine Tame.bind (parseHeader_tame h) fun p _ => ?_
  obtain ⟨cs, b'⟩ := p
  dsimp only
  exact Tame.bind (Tame.binInt _) fun _ _ => Tame.bind (decodePartitionTable_tame _ _ _) fun _ _ => GSRNP.fromTagUri_tame _

theorem GSRNP.fromBinary_key {b : Str} (h : b.take 8 ∉ GSRNP.headers.map (·.1)) : GSRNP.fromBinary b = .error .key := by
  unfold GSRNP.fromBinary
  rw [parseHeader_key h]
  rfl

theorem ITIP.fromBinary_tame {b : Str} (h : b.take 8 ∈ ITIP.headers.map (·.1)) : Tame (ITIP.fromBinary b) := by
  unfold ITIP.fromBinary
  refine Tame.bind (parseHeader_tame h) fun p _ => ?_
  obtain ⟨cs, b'⟩ := p
  dsimp only
  refine Tame.bind (Tame.binInt _) fun _ _ => Tame.bind (decodePartitionTable_tame _ _ _) fun _ _ => Tame.bind (decodeFixedWidthInteger_tame _) fun _ _ => Tame.bind (decodeFixedWidthInteger_tame _) fun _ _ => ?_
  split
  · exact Tame.bind (Tame.binIntStr _) fun _ _ => ITIP.fromTagUri_tame _
  · exact Tame.bind (decodeString_tame _) fun _ _ => ITIP.fromTagUri_tame _

theorem ITIP.fromBinary_key {b : Str} (h : b.take 8 ∉ ITIP.headers.map (·.1)) : ITIP.fromBinary b = .error .key := by
  unfold ITIP.fromBinary
  rw [parseHeader_key h]
  rfl

theorem SGCN.fromBinary_tame {b : Str} (h : b.take 8 ∈ SGCN.headers.map (·.1)) : Tame (SGCN.fromBinary b) := by
  unfold SGCN.fromBinary
  refine Tame.bind (parseHeader_tame h) fun p _ => ?_
  obtain ⟨cs, b'⟩ := p
  dsimp only
  exact Tame.bind (Tame.binInt _) fun _ _ => Tame.bind (decodePartitionTable_tame _ _ _) fun _ _ => Tame.bind (decodeNumericString_tame _) fun _ _ => SGCN.fromTagUri_tame _

theorem SGCN.fromBinary_key {b : Str} (h : b.take 8 ∉ SGCN.headers.map (·.1)) : SGCN.fromBinary b = .error .key := by
  unfold SGCN.fromBinary
  rw [parseHeader_key h]
  rfl

theorem SGLN.fromBinary_tame {b : Str} (h : b.take 8 ∈ SGLN.headers.map (·.1)) : Tame (SGLN.fromBinary b) := by
  unfold SGLN.fromBinary
  refine Tame.bind (parseHeader_tame h) fun p _ => ?_
  obtain ⟨cs, b'⟩ := p
  dsimp only
  refine Tame.bind (Tame.binInt _) fun _ _ => Tame.bind (decodePartitionTable_tame _ _ _) fun _ _ => ?_
  split
  · exact Tame.bind (Tame.binIntStr _) fun _ _ => SGLN.fromTagUri_tame _
  · exact Tame.bind (decodeString_tame _) fun _ _ => SGLN.fromTagUri_tame _

theorem SGLN.fromBinary_key {b : Str} (h : b.take 8 ∉ SGLN.headers.map (·.1)) : SGLN.fromBinary b = .error .key := by
  unfold SGLN.fromBinary
  rw [parseHeader_key h]
  rfl

theorem SGTIN.fromBinary_tame {b : Str} (h : b.take 8 ∈ SGTIN.headers.map (·.1)) : Tame (SGTIN.fromBinary b) := by
  unfold SGTIN.fromBinary
  refine Tame.bind (parseHeader_tame h) fun p _ => ?_
  obtain ⟨cs, b'⟩ := p
  dsimp only
  refine Tame.bind (Tame.binInt _) fun _ _ => Tame.bind (decodePartitionTable_tame _ _ _) fun _ _ => ?_
  split
  · exact Tame.bind (Tame.binIntStr _) fun _ _ => SGTIN.fromTagUri_tame _
  · exact Tame.bind (decodeString_tame _) fun _ _ => SGTIN.fromTagUri_tame _

theorem SGTIN.fromBinary_key {b : Str} (h : b.take 8 ∉ SGTIN.headers.map (·.1)) : SGTIN.fromBinary b = .error .key := by
  unfold SGTIN.fromBinary
  rw [parseHeader_key h]
  rfl

theorem SSCC.fromBinary_tame {b : Str} (h : b.take 8 ∈ SSCC.headers.map (·.1)) : Tame (SSCC.fromBinary b) := by
  unfold SSCC.fromBinary
  refine Tame.bind (parseHeader_tame h) fun p _ => ?_
  obtain ⟨cs, b'⟩ := p
  dsimp only
  exact Tame.bind (Tame.binInt _) fun _ _ => Tame.bind (decodePartitionTable_tame _ _ _) fun _ _ => SSCC.fromTagUri_tame _

theorem SSCC.fromBinary_key {b : Str} (h : b.take 8 ∉ SSCC.headers.map (·.1)) : SSCC.fromBinary b = .error .key := by
  unfold SSCC.fromBinary
  rw [parseHeader_key h]
  rfl

theorem USDOD.fromBinary_tame {b : Str} (h : b.take 8 ∈ USDOD.headers.map (·.1)) : Tame (USDOD.fromBinary b) := by
  unfold USDOD.fromBinary
  refine Tame.bind (parseHeader_tame h) fun p _ => ?_
  obtain ⟨cs, b'⟩ := p
  dsimp only
  exact Tame.bind (Tame.binInt _) fun _ _ => Tame.bind (decodeCageCode_tame _) fun _ _ => Tame.bind (Tame.binIntStr _) fun _ _ => USDOD.fromTagUri_tame _

theorem USDOD.fromBinary_key {b : Str} (h : b.take 8 ∉ USDOD.headers.map (·.1)) : USDOD.fromBinary b = .error .key := by
  unfold USDOD.fromBinary
  rw [parseHeader_key h]
  rfl

theorem CPI.fromElem_tame (s : Str) (n : Int) : Tame (CPI.fromGs1ElementString s n) := by
  cases hm : Rx.cpiElem.fullmatch s with
  | false =>
    unfold CPI.fromGs1ElementString
    rw [hm]
    exact Tame.convert
  | true =>
    obtain ⟨d, r, t, hd, hr, ht, rfl⟩ := (CPI.elem_lang s).1 hm
    rw [← List.append_assoc d] at hm ⊢
    have hb : '(' ∉ d ++ r := by
      intro hx
      rcases List.mem_append.1 hx with hx | hx
      · exact hd.1.no_paren hx
      · exact CPI.gs39_no_paren hr.1 hx
    rw [CPI.from_eq n hm hb ht.1.no_paren]
    exact CPI.new_tame _

theorem GDTI.fromElem_tame (s : Str) (n : Int) : Tame (GDTI.fromGs1ElementString s n) := by
  cases hm : Rx.gdtiElem.fullmatch s with
  | false =>
    unfold GDTI.fromGs1ElementString
    rw [hm]
    exact Tame.convert
  | true =>
    obtain ⟨d, c, ⟨hd, hl⟩, hc, rfl⟩ := (GDTI.elem_lang s).1 hm
    rw [GDTI.from_eq n hd hl hc]
    exact GDTI.new_tame _

theorem GIAI.fromElem_tame (s : Str) (n : Int) : Tame (GIAI.fromGs1ElementString s n) := by
  cases hm : Rx.giaiElem.fullmatch s with
  | false =>
    unfold GIAI.fromGs1ElementString
    rw [hm]
    exact Tame.convert
  | true =>
    rw [GIAI.from_eq n hm]
    exact GIAI.new_tame _

theorem GINC.fromElem_tame (s : Str) (n : Int) : Tame (GINC.fromGs1ElementString s n) := by
  cases hm : Rx.gincElem.fullmatch s with
  | false =>
    unfold GINC.fromGs1ElementString
    rw [hm]
    exact Tame.convert
  | true =>
    rw [GINC.from_eq n hm]
    exact GINC.new_tame _

theorem GRAI.fromElem_tame (s : Str) (n : Int) : Tame (GRAI.fromGs1ElementString s n) := by
  cases hm : Rx.graiElem.fullmatch s with
  | false =>
    unfold GRAI.fromGs1ElementString
    rw [hm]
    exact Tame.convert
  | true =>
    obtain ⟨d, c, ⟨hd, hl⟩, hc, rfl⟩ := (GRAI.elem_lang s).1 hm
    rw [GRAI.from_eq n hd hl hc]
    exact GRAI.new_tame _

theorem GSIN.fromElem_tame (s : Str) (n : Int) : Tame (GSIN.fromGs1ElementString s n) := by
  cases hm : Rx.gsinElem.fullmatch s with
  | false =>
    unfold GSIN.fromGs1ElementString
    rw [hm]
    exact Tame.convert
  | true =>
    obtain ⟨d, ⟨hd, hl⟩, rfl⟩ := (GSIN.elem_lang s).1 hm
    rw [GSIN.from_eq n hd hl]
    exact GSIN.new_tame _

theorem GSRN.fromElem_tame (s : Str) (n : Int) : Tame (GSRN.fromGs1ElementString s n) := by
  cases hm : Rx.gsrnElem.fullmatch s with
  | false =>
    unfold GSRN.fromGs1ElementString
    rw [hm]
    exact Tame.convert
  | true =>
    obtain ⟨d, ⟨hd, hl⟩, rfl⟩ := (GSRN.elem_lang s).1 hm
    rw [GSRN.from_eq n hd hl]
    exact GSRN.new_tame _

theorem GSRNP.fromElem_tame (s : Str) (n : Int) : Tame (GSRNP.fromGs1ElementString s n) := by
  cases hm : Rx.gsrnpElem.fullmatch s with
  | false =>
    unfold GSRNP.fromGs1ElementString
    rw [hm]
    exact Tame.convert
  | true =>
    obtain ⟨d, ⟨hd, hl⟩, rfl⟩ := (GSRNP.elem_lang s).1 hm
    rw [GSRNP.from_eq n hd hl]
    exact GSRNP.new_tame _

theorem ITIP.fromElem_tame (s : Str) (n : Int) : Tame (ITIP.fromGs1ElementString s n) := by
  cases hm : Rx.itipElem.fullmatch s with
  | false =>
    unfold ITIP.fromGs1ElementString
    rw [hm]
    exact Tame.convert
  | true =>
    obtain ⟨d, c, ⟨hd, hl⟩, hc, rfl⟩ := (ITIP.elem_lang s).1 hm
    cases d with
    | nil => simp at hl
    | cons i d => ?_
    rw [ITIP.from_eq n hd hl hc]
    exact ITIP.new_tame _

theorem LGTIN.fromElem_tame (s : Str) (n : Int) : Tame (LGTIN.fromGs1ElementString s n) := by
  cases hm : Rx.lgtinElem.fullmatch s with
  | false =>
    unfold LGTIN.fromGs1ElementString
    rw [hm]
    exact Tame.convert
  | true =>
    obtain ⟨d, c, ⟨hd, hl⟩, hc, rfl⟩ := (LGTIN.elem_lang s).1 hm
    cases d with
    | nil => simp at hl
    | cons i d => ?_
    by_cases hg : HasGroup 2 c
    · rw [LGTIN.from_group n hd hl hc hg]; exact Tame.value
    rw [LGTIN.from_eq n hd hl hc hg]
    exact LGTIN.new_tame _

theorem PGLN.fromElem_tame (s : Str) (n : Int) : Tame (PGLN.fromGs1ElementString s n) := by
  cases hm : Rx.pglnElem.fullmatch s with
  | false =>
    unfold PGLN.fromGs1ElementString
    rw [hm]
    exact Tame.convert
  | true =>
    obtain ⟨d, ⟨hd, hl⟩, rfl⟩ := (PGLN.elem_lang s).1 hm
    rw [PGLN.from_eq n hd hl]
    exact PGLN.new_tame _

theorem SGCN.fromElem_tame (s : Str) (n : Int) : Tame (SGCN.fromGs1ElementString s n) := by
  cases hm : Rx.sgcnElem.fullmatch s with
  | false =>
    unfold SGCN.fromGs1ElementString
    rw [hm]
    exact Tame.convert
  | true =>
    obtain ⟨d, c, ⟨hd, hl⟩, hc, rfl⟩ := (SGCN.elem_lang s).1 hm
    rw [SGCN.from_eq n hd hl hc]
    exact SGCN.new_tame _

theorem SGLN.fromElem_tame (s : Str) (n : Int) : Tame (SGLN.fromGs1ElementString s n) := by
  cases hm : Rx.sglnElem.fullmatch s with
  | false =>
    unfold SGLN.fromGs1ElementString
    rw [hm]
    exact Tame.convert
  | true =>
    obtain ⟨d, c, ⟨hd, hl⟩, hc, rfl⟩ := (SGLN.elem_lang s).1 hm
    by_cases hg : HasGroup 3 c
    · rw [SGLN.from_group n hd hl hc hg]; exact Tame.value
    rw [SGLN.from_eq n hd hl hc hg]
    exact SGLN.new_tame _

theorem SGTIN.fromElem_tame (s : Str) (n : Int) : Tame (SGTIN.fromGs1ElementString s n) := by
  cases hm : Rx.sgtinElem.fullmatch s with
  | false =>
    unfold SGTIN.fromGs1ElementString
    rw [hm]
    exact Tame.convert
  | true =>
    obtain ⟨d, c, ⟨hd, hl⟩, hc, rfl⟩ := (SGTIN.elem_lang s).1 hm
    cases d with
    | nil => simp at hl
    | cons i d => ?_
    by_cases hg : HasGroup 2 c
    · rw [SGTIN.from_group n hd hl hc hg]; exact Tame.value
    rw [SGTIN.from_eq n hd hl hc hg]
    exact SGTIN.new_tame _

theorem SSCC.fromElem_tame (s : Str) (n : Int) : Tame (SSCC.fromGs1ElementString s n) := by
  cases hm : Rx.ssccElem.fullmatch s with
  | false =>
    unfold SSCC.fromGs1ElementString
    rw [hm]
    exact Tame.convert
  | true =>
    obtain ⟨d, ⟨hd, hl⟩, rfl⟩ := (SSCC.elem_lang s).1 hm
    cases d with
    | nil => simp at hl
    | cons i d => ?_
    rw [SSCC.from_eq n hd hl]
    exact SSCC.new_tame _

theorem UPUI.fromElem_tame (s : Str) (n : Int) : Tame (UPUI.fromGs1ElementString s n) := by
  cases hm : Rx.upuiElem.fullmatch s with
  | false =>
    unfold UPUI.fromGs1ElementString
    rw [hm]
    exact Tame.convert
  | true =>
    obtain ⟨d, c, ⟨hd, hl⟩, hc, rfl⟩ := (UPUI.elem_lang s).1 hm
    cases d with
    | nil => simp at hl
    | cons i d => ?_
    rw [UPUI.from_eq n hd hl hc]
    exact UPUI.new_tame _

theorem Cls.new_tame (c : Cls) (u : Str) : Tame (c.new u) := by
  cases c
  · exact (ADI.new_tame u).map
  · exact (BIC.new_tame u).map
  · exact (CPI.new_tame u).map
  · exact (GDTI.new_tame u).map
  · exact (GIAI.new_tame u).map
  · exact (GID.new_tame u).map
  · exact (GINC.new_tame u).map
  · exact (GRAI.new_tame u).map
  · exact (GSIN.new_tame u).map
  · exact (GSRN.new_tame u).map
  · exact (GSRNP.new_tame u).map
  · exact (IMOVN.new_tame u).map
  · exact (ITIP.new_tame u).map
  · exact (LGTIN.new_tame u).map
  · exact (PGLN.new_tame u).map
  · exact (SGCN.new_tame u).map
  · exact (SGLN.new_tame u).map
  · exact (SGTIN.new_tame u).map
  · exact (SSCC.new_tame u).map
  · exact (UPUI.new_tame u).map
  · exact (USDOD.new_tame u).map

theorem Cls.fromTagUri_tame {c : Cls} (h : c.isTagEncodable = true) (t : Str) : Tame (c.fromTagUri t) := by
  cases c
  · exact (ADI.fromTagUri_tame t).map
  · cases h
  · exact (CPI.fromTagUri_tame t).map
  · exact (GDTI.fromTagUri_tame t).map
  · exact (GIAI.fromTagUri_tame t).map
  · exact (GID.fromTagUri_tame t).map
  · cases h
  · exact (GRAI.fromTagUri_tame t).map
  · cases h
  · exact (GSRN.fromTagUri_tame t).map
  · exact (GSRNP.fromTagUri_tame t).map
  · cases h
  · exact (ITIP.fromTagUri_tame t).map
  · cases h
  · cases h
  · exact (SGCN.fromTagUri_tame t).map
  · exact (SGLN.fromTagUri_tame t).map
  · exact (SGTIN.fromTagUri_tame t).map
  · exact (SSCC.fromTagUri_tame t).map
  · cases h
  · exact (USDOD.fromTagUri_tame t).map

theorem Cls.fromElem_tame {c : Cls} (h : c.isGs1Element = true) (s : Str) (n : Int) : Tame (c.fromGs1ElementString s n) := by
  cases c
  · cases h
  · cases h
  · exact (CPI.fromElem_tame s n).map
  · exact (GDTI.fromElem_tame s n).map
  · exact (GIAI.fromElem_tame s n).map
  · cases h
  · exact (GINC.fromElem_tame s n).map
  · exact (GRAI.fromElem_tame s n).map
  · exact (GSIN.fromElem_tame s n).map
  · exact (GSRN.fromElem_tame s n).map
  · exact (GSRNP.fromElem_tame s n).map
  · cases h
  · exact (ITIP.fromElem_tame s n).map
  · exact (LGTIN.fromElem_tame s n).map
  · exact (PGLN.fromElem_tame s n).map
  · exact (SGCN.fromElem_tame s n).map
  · exact (SGLN.fromElem_tame s n).map
  · exact (SGTIN.fromElem_tame s n).map
  · exact (SSCC.fromElem_tame s n).map
  · exact (UPUI.fromElem_tame s n).map
  · cases h

theorem Cls.fromBinary_tame {c : Cls} {b : Str} (h : b.take 8 ∈ c.binaryHeaders) : Tame (c.fromBinary b) := by
  cases c
  · exact (ADI.fromBinary_tame h).map
  · cases h
  · exact (CPI.fromBinary_tame h).map
  · exact (GDTI.fromBinary_tame h).map
  · exact (GIAI.fromBinary_tame h).map
  · exact (GID.fromBinary_tame h).map
  · cases h
  · exact (GRAI.fromBinary_tame h).map
  · cases h
  · exact (GSRN.fromBinary_tame h).map
  · exact (GSRNP.fromBinary_tame h).map
  · cases h
  · exact (ITIP.fromBinary_tame h).map
  · cases h
  · cases h
  · exact (SGCN.fromBinary_tame h).map
  · exact (SGLN.fromBinary_tame h).map
  · exact (SGTIN.fromBinary_tame h).map
  · exact (SSCC.fromBinary_tame h).map
  · cases h
  · exact (USDOD.fromBinary_tame h).map

theorem Cls.fromBinary_key {c : Cls} {b : Str} (hc : c.isTagEncodable = true) (h : b.take 8 ∉ c.binaryHeaders) : c.fromBinary b = .error .key := by
  cases c
  · show Except.map _ _ = _; rw [ADI.fromBinary_key h]; rfl
  · cases hc
  · show Except.map _ _ = _; rw [CPI.fromBinary_key h]; rfl
  · show Except.map _ _ = _; rw [GDTI.fromBinary_key h]; rfl
  · show Except.map _ _ = _; rw [GIAI.fromBinary_key h]; rfl
  · show Except.map _ _ = _; rw [GID.fromBinary_key h]; rfl
  · cases hc
  · show Except.map _ _ = _; rw [GRAI.fromBinary_key h]; rfl
  · cases hc
  · show Except.map _ _ = _; rw [GSRN.fromBinary_key h]; rfl
  · show Except.map _ _ = _; rw [GSRNP.fromBinary_key h]; rfl
  · cases hc
  · show Except.map _ _ = _; rw [ITIP.fromBinary_key h]; rfl
  · cases hc
  · cases hc
  · show Except.map _ _ = _; rw [SGCN.fromBinary_key h]; rfl
  · show Except.map _ _ = _; rw [SGLN.fromBinary_key h]; rfl
  · show Except.map _ _ = _; rw [SGTIN.fromBinary_key h]; rfl
  · show Except.map _ _ = _; rw [SSCC.fromBinary_key h]; rfl
  · cases hc
  · show Except.map _ _ = _; rw [USDOD.fromBinary_key h]; rfl
end Epc
