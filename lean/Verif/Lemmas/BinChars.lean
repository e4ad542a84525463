/-
Generated by tools/gen_binchars.py.  What `binary()` returns, for all objects (accepted or not): the header, then bits and perhaps minus signs.
-/
import Verif.Lemmas.HexForm
import Verif.Lemmas.Verify
import Verif.Model.Parsers

namespace Epc
open Spec Re

/-- Bits and minus signs: what `f"{i:0{w}b}"` is made of. -/
def Signed (s : Str) : Prop := ∀ c ∈ s, c = '0' ∨ c = '1' ∨ c = '-'

instance (s : Str) : Decidable (Signed s) := inferInstanceAs (Decidable (∀ c ∈ s, c = '0' ∨ c = '1' ∨ c = '-'))

theorem Signed.append {s t : Str} (hs : Signed s) (ht : Signed t) : Signed (s ++ t) := by
  intro c hc
  rcases List.mem_append.1 hc with h | h
  · exact hs c h
  · exact ht c h

theorem Signed.flatten {l : List Str} (h : ∀ s ∈ l, Signed s) : Signed l.flatten := by
  intro c hc
  obtain ⟨s, hs, hc⟩ := List.mem_flatten.1 hc
  exact h s hs c hc

theorem Signed.nil : Signed [] := by intro c hc; cases hc

theorem Signed.zeros (n : Nat) : Signed (List.replicate n '0') := by
  intro c hc
  exact .inl (List.eq_of_mem_replicate hc)

theorem Signed.of_bits {s : Str} (h : ∀ c ∈ s, c = '0' ∨ c = '1') : Signed s := by
  intro c hc
  rcases h c hc with h | h
  · exact .inl h
  · exact .inr (.inl h)

theorem toDigits_two (n : Nat) : Signed (Nat.toDigits 2 n) := by
  intro c hc
  obtain ⟨d, hd, rfl⟩ := canonDigits_toDigits (b := 2) (n := n) (by decide) c hc
  have : d = 0 ∨ d = 1 := by omega
  rcases this with rfl | rfl <;> decide

theorem Signed.padLeft {s : Str} (h : Signed s) (w : Nat) : Signed (padLeft '0' w s) := by
  unfold Epc.padLeft
  exact (Signed.zeros _).append h

theorem Signed.padRight {s : Str} (h : Signed s) (w : Nat) : Signed (padRight '0' w s) := by
  unfold Epc.padRight
  exact h.append (Signed.zeros _)

theorem signed_fmtBin (i : Int) (w : Nat) : Signed (fmtBin i w) := by
  unfold fmtBin
  split
  · exact Signed.append (s := ['-']) (by decide) ((toDigits_two _).padLeft _)
  · exact (toDigits_two _).padLeft _

theorem signed_strToBinary {s r : Str} {n : Nat} (h : strToBinary s n = .ok r) : Signed r := by
  unfold strToBinary at h
  obtain ⟨i, -, h⟩ := bind_ok_iff.1 h
  cases h
  exact signed_fmtBin _ _

theorem mem_of_mapM {α β : Type} {f : α → Except Err β} {l : List α} {r : List β} (h : l.mapM f = .ok r) :
    ∀ b ∈ r, ∃ a ∈ l, f a = .ok b := by
  induction l generalizing r with
  | nil => cases h; intro b hb; cases hb
  | cons a l ih =>
    rw [List.mapM_cons] at h
    obtain ⟨b, hb, h⟩ := bind_ok_iff.1 h
    obtain ⟨bs, hbs, h⟩ := bind_ok_iff.1 h
    cases h
    intro x hx
    rcases List.mem_cons.1 hx with rfl | hx
    · exact ⟨a, List.mem_cons_self, hb⟩
    · obtain ⟨a', ha', e⟩ := ih hbs x hx
      exact ⟨a', List.mem_cons_of_mem _ ha', e⟩

theorem signed_encodeStringPiece {g r : Str} (h : encodeStringPiece g = .ok r) : Signed r := by
  unfold encodeStringPiece at h
  split at h
  · cases h; exact Signed.nil
  · split at h
    · obtain ⟨parts, hp, h⟩ := bind_ok_iff.1 h
      cases h
      refine Signed.flatten fun s hs => ?_
      obtain ⟨a, -, ha⟩ := mem_of_mapM hp s hs
      exact signed_strToBinary ha
    · obtain ⟨i, -, h⟩ := bind_ok_iff.1 h
      exact signed_strToBinary h

theorem signed_encodeString {s r : Str} {n : Nat} (h : encodeString s n = .ok r) : Signed r := by
  unfold encodeString at h
  obtain ⟨parts, hp, h⟩ := bind_ok_iff.1 h
  cases h
  refine (Signed.flatten fun s hs => ?_).padRight _
  obtain ⟨a, -, ha⟩ := mem_of_mapM hp s hs
  exact signed_encodeStringPiece ha

theorem signed_encodeSixChar {c : Char} {r : Str} (h : encodeSixChar c = .ok r) : Signed r := by
  unfold encodeSixChar at h
  split at h
  · obtain ⟨i, -, h⟩ := bind_ok_iff.1 h
    cases h
    exact Signed.append (by decide) (signed_fmtBin _ _)
  · cases h; exact signed_fmtBin _ _

theorem signed_encodeSixPiece {g r : Str} (h : encodeSixPiece g = .ok r) : Signed r := by
  unfold encodeSixPiece at h
  split at h
  · cases h; exact Signed.nil
  · split at h
    · cases h; decide
    · split at h
      · obtain ⟨parts, hp, h⟩ := bind_ok_iff.1 h
        cases h
        refine Signed.flatten fun s hs => ?_
        obtain ⟨a, -, ha⟩ := mem_of_mapM hp s hs
        exact signed_encodeSixChar ha
      · obtain ⟨i, -, h⟩ := bind_ok_iff.1 h
        exact signed_strToBinary h

theorem signed_encodeStringSixBits {s r : Str} (h : encodeStringSixBits s = .ok r) : Signed r := by
  unfold encodeStringSixBits at h
  obtain ⟨parts, hp, h⟩ := bind_ok_iff.1 h
  cases h
  refine Signed.append (Signed.flatten fun s hs => ?_) (by decide)
  obtain ⟨a, -, ha⟩ := mem_of_mapM hp s hs
  exact signed_encodeSixPiece ha

theorem signed_encodePartitionTable {C D r : Str} {t : List Row} {m : PartMode} (h : encodePartitionTable C D t m = .ok r) : Signed r := by
  unfold encodePartitionTable at h
  obtain ⟨row, -, h⟩ := bind_ok_iff.1 h
  obtain ⟨c, hc, h⟩ := bind_ok_iff.1 h
  obtain ⟨d, hd, h⟩ := bind_ok_iff.1 h
  cases h
  refine ((signed_fmtBin _ _).append (signed_strToBinary hc)).append ?_
  unfold encodeRef at hd
  split at hd
  · exact signed_encodeString hd
  · exact signed_encodeStringSixBits hd
  · split at hd
    · exact signed_strToBinary hd
    · cases hd; exact Signed.zeros _

theorem signed_encodeNumericString {s r : Str} {n : Nat} (h : encodeNumericString s n = .ok r) : Signed r := by
  unfold encodeNumericString at h
  split at h
  · cases h
  · exact signed_strToBinary h

theorem signed_encodeFixedWidthInteger {s r : Str} {n : Nat} (h : encodeFixedWidthInteger s n = .ok r) : Signed r := by
  unfold encodeFixedWidthInteger at h
  obtain ⟨i, -, h⟩ := bind_ok_iff.1 h
  split at h
  · cases h
  · exact signed_strToBinary h

theorem signed_encodeCageCode (s : Str) : Signed (encodeCageCode s) := by
  refine Signed.flatten fun x hx => ?_
  obtain ⟨c, -, rfl⟩ := List.mem_map.1 hx
  exact (toDigits_two _).padLeft _

theorem signed_encodeCageCodeSixBits {s r : Str} (h : encodeCageCodeSixBits s = .ok r) : Signed r := by
  unfold encodeCageCodeSixBits at h
  obtain ⟨e, he, h⟩ := bind_ok_iff.1 h
  cases h
  have h1 := signed_encodeStringSixBits he
  have h2 : Signed (sliceToI e (-6)) := by
    intro c hc
    exact h1 c (List.mem_of_mem_take hc)
  split
  · exact Signed.append (by decide) h2
  · exact h2

theorem digitsGo_noMinus {b : Nat} (acc : Nat) (s : Str) {n : Nat} (h : digitsGo b acc s = some n) : '-' ∉ s := by
  have hm : digitIn b '-' = Option.none := rfl
  fun_induction digitsGo b acc s with
  | case1 => simp
  | case2 acc c cs d hd ih =>
    simp only [List.mem_cons, not_or]
    refine ⟨?_, ih h⟩
    rintro rfl
    rw [hm] at hd
    cases hd
  | case3 => cases h
  | case4 acc c' cs' d hd hn ih =>
    simp only [List.mem_cons, not_or]
    refine ⟨by decide, ?_, ih h⟩
    rintro rfl
    rw [hm] at hd
    cases hd
  | case5 => cases h
  | case6 => cases h

theorem bits_of_pyInt {s : Str} {i : Int} (hs : Signed s) (h0 : s.head? = some '0') (h : pyInt 2 s = .ok i) : Bits s := by
  cases s with
  | nil => cases h0
  | cons c t => ?_
  cases h0
  have hn : ('0' :: t).map intNormChar = '0' :: t := by
    rw [List.map_congr_left (g := id), List.map_id]
    intro c hc
    rcases hs c hc with rfl | rfl | rfl <;> decide
  have hsp : ∀ c ∈ ('0' :: t), isCSpace c = false := by
    intro c hc
    rcases hs c hc with rfl | rfl | rfl <;> decide
  have e1 : dropRightWhile isCSpace ((('0' :: t).map intNormChar).dropWhile isCSpace) = '0' :: t := by
    rw [hn, List.dropWhile_cons_of_neg (by decide)]
    unfold dropRightWhile
    cases hr : ('0' :: t).reverse with
    | nil => simp at hr
    | cons x r =>
      rw [List.dropWhile_cons_of_neg]
      · rw [← hr, List.reverse_reverse]
      · have := hsp x (by rw [← List.mem_reverse, hr]; exact List.mem_cons_self)
        simp [this]
  have e2 : dropBasePrefix 2 ('0' :: t) = '0' :: t := by
    cases t with
    | nil => rfl
    | cons x t =>
      rcases hs x (by simp) with rfl | rfl | rfl <;> rfl
  have e3 : pyInt 2 ('0' :: t) = match digitsVal 2 ('0' :: t) with | some n => .ok (n : Int) | Option.none => .error .value := by
    unfold pyInt
    rw [e1]
    show (match digitsVal 2 (dropBasePrefix 2 ('0' :: t)) with | some n => Except.ok (n : Int) | Option.none => .error Err.value) = _
    rw [e2]
  rw [e3] at h
  cases hd : digitsVal 2 ('0' :: t) with
  | none => rw [hd] at h; cases h
  | some n =>
    have hg : digitsGo 2 0 t = some n := hd
    have hm := digitsGo_noMinus _ _ hg
    intro c hc
    rcases hs c hc with rfl | rfl | rfl
    · exact .inl rfl
    · exact .inr rfl
    · rcases List.mem_cons.1 hc with h | h
      · cases h
      · exact absurd h hm

/-- If `hex()` returns, the binary form was made of bits. -/
theorem bits_of_hexOf {b h : Str} (hs : Signed b) (h0 : b.head? = some '0') (hh : hexOf (.ok b) = .ok h) : Bits b := by
  unfold hexOf at hh
  rw [ok_bind] at hh
  obtain ⟨i, hi, -⟩ := bind_ok_iff.1 hh
  have hp := bits_of_pyInt (hs.padRight _) (by
    unfold padRight
    cases b with
    | nil => cases h0
    | cons c t => exact h0) hi
  intro c hc
  exact hp c (by unfold padRight; exact List.mem_append_left _ hc)

theorem lookup_header : ∀ c ∈ Cls.all, ∀ h ∈ c.binaryHeaders, binaryHeaderTable.lookup h = some c := by decide +kernel

theorem binaryToTagEncodable_of {c : Cls} {b hd : Str} (hc : hd ∈ c.binaryHeaders) (hb : b.take 8 = hd) :
    binaryToTagEncodable b = c.fromBinary b := by
  unfold binaryToTagEncodable
  rw [hb, lookup_header c (by cases c <;> decide) hd hc]

/-- The headers: eight bits, `0` first, not all of the first four zero. -/
theorem header_facts : ∀ c ∈ Cls.all, ∀ h ∈ c.binaryHeaders, h.length = 8 ∧ Signed h ∧ h.head? = some '0' ∧ h.take 4 ≠ py "0000" := by decide +kernel

theorem hexToTagEncodable_of {c : Cls} {b h hd r : Str} (hc : hd ∈ c.binaryHeaders) (hb : b = hd ++ r) (hr : Signed r) (hh : hexOf (.ok b) = .ok h) :
    Bits b ∧ hexToTagEncodable h = fromHexWith c.fromBinary h := by
  obtain ⟨h8, hs, h0, h4⟩ := header_facts c (by cases c <;> decide) hd hc
  have hB : Bits b := by
    refine bits_of_hexOf (hb ▸ hs.append hr) ?_ hh
    subst hb
    cases hd with
    | nil => cases h0
    | cons a t => exact h0
  have ht : b.take 8 = hd := by rw [hb]; exact take_append_eq h8
  have hl : 8 ≤ b.length := by rw [hb, List.length_append]; omega
  obtain ⟨h', e1, -, -, -, e2⟩ := hexOf_form hB (by omega) (by
    have : b.take 4 = hd.take 4 := by rw [← ht, List.take_take]; rfl
    rw [this]; exact h4)
  rw [hh] at e1
  cases e1
  refine ⟨hB, ?_⟩
  unfold hexToTagEncodable fromHexWith
  rw [e2, ok_bind, ok_bind]
  refine binaryToTagEncodable_of hc ?_
  rw [List.take_append_of_le_length hl, ht]

theorem lookup_mem {α : Type} {t : List (Str × α)} {h : Str} {c : α} (e : t.lookup h = some c) : (h, c) ∈ t := by
  induction t with
  | nil => cases e
  | cons a t ih =>
    rw [List.lookup_cons] at e
    split at e
    · next hb =>
      have : h = a.1 := by simpa using hb
      cases e
      subst this
      exact List.mem_cons_self
    · exact List.mem_cons_of_mem _ (ih e)

theorem table_lookup_none {α : Type} {t : List (Str × α)} {h : Str} (e : t.lookup h = Option.none) (c : α) : (h, c) ∉ t := by
  induction t with
  | nil => simp
  | cons a t ih =>
    rw [List.lookup_cons] at e
    split at e
    · cases e
    · next hb =>
      intro hm
      rcases List.mem_cons.1 hm with rfl | hm
      · simp at hb
      · exact ih e hm

theorem fromHexWith_map {α β : Type} {dec : Str → Except Err α} {dec' : Str → Except Err β} {g : α → β} (h : ∀ b, dec' b = (dec b).map g) (s : Str) :
    fromHexWith dec' s = (fromHexWith dec s).map g := by
  unfold fromHexWith
  cases hexToBinary s with
  | error e => rfl
  | ok b => exact h b

theorem dispatch_all {α : Type} {c : Cls} {inj : α → Scheme} {dec : Str → Except Err α} {enc : Except Err Str} {hd : Str}
    (hc : hd ∈ c.binaryHeaders) (hf : ∀ b, enc = .ok b → ∃ r, Signed r ∧ b = hd ++ r) (hd' : ∀ b, c.fromBinary b = (dec b).map inj) :
    (∀ b, enc = .ok b → binaryToTagEncodable b = (dec b).map inj) ∧
    (∀ h, hexOf enc = .ok h → hexToTagEncodable h = (fromHexWith dec h).map inj) ∧
    (∀ s, base64Of enc = .ok s → base64ToTagEncodable s = (fromBase64With dec s).map inj) := by
  have hhex : ∀ h, hexOf enc = .ok h → hexToTagEncodable h = (fromHexWith dec h).map inj := by
    intro h hh
    cases enc with
    | error e => cases hh
    | ok b =>
      obtain ⟨r, hr, hb⟩ := hf b rfl
      rw [(hexToTagEncodable_of hc hb hr hh).2, fromHexWith_map hd']
  refine ⟨?_, hhex, ?_⟩
  · intro b hb
    obtain ⟨r, hr, rfl⟩ := hf b hb
    rw [← hd']
    exact binaryToTagEncodable_of hc (take_append_eq (header_facts c (by cases c <;> decide) hd hc).1)
  · intro s hs
    unfold base64Of at hs
    obtain ⟨h, hh, hs2⟩ := bind_ok_iff.1 hs
    cases enc with
    | error e => cases hh
    | ok b => ?_
    obtain ⟨r, hr, hb⟩ := hf b rfl
    have hB := (hexToTagEncodable_of hc hb hr hh).1
    obtain ⟨h8, -, h0, h4⟩ := header_facts c (by cases c <;> decide) hd hc
    have hl : 8 ≤ b.length := by rw [hb, List.length_append]; omega
    obtain ⟨h', e1, hu, hlen, -, e2⟩ := hexOf_form hB (by omega) (by
      have : b.take 4 = hd.take 4 := by rw [hb, List.take_append_of_le_length (by omega)]
      rw [this]; exact h4)
    rw [hh] at e1
    cases e1
    obtain ⟨bs, eb, hbs, hx⟩ := hexToBase64_eq (HexDigits_of_upper hu) (by rw [hlen]; omega)
    rw [hs2] at eb
    cases eb
    have hdec := hhex h hh
    unfold hexToTagEncodable at hdec
    unfold base64ToTagEncodable fromBase64With hexToTagEncodable
    rw [base64ToHex_encode hbs, ok_bind, ok_bind, hx, hexToBinary_lower (HexDigits_of_upper hu), fromHexWith_lower (HexDigits_of_upper hu)]
    exact hdec

theorem SGTIN.binary_signed {x : SGTIN} {cs : SGTIN.Coding} {f : Fin 8} {b : Str} (h : x.binary cs f = .ok b) :
    ∃ r, Signed r ∧ b = cs.header ++ r := by
  unfold SGTIN.binary at h
  obtain ⟨r0, h0, h⟩ := bind_ok_iff.1 h
  obtain ⟨r1, h1, h⟩ := bind_ok_iff.1 h
  dsimp only at h
  split at h
  · obtain ⟨r2, h2, h⟩ := bind_ok_iff.1 h
    cases h
    exact ⟨_, (Signed.append (signed_strToBinary h0) (Signed.append (signed_encodePartitionTable h1) (signed_strToBinary h2))), by simp only [List.append_assoc]⟩
  · obtain ⟨r2, h2, h⟩ := bind_ok_iff.1 h
    cases h
    exact ⟨_, (Signed.append (signed_strToBinary h0) (Signed.append (signed_encodePartitionTable h1) (signed_encodeString h2))), by simp only [List.append_assoc]⟩

theorem SGTIN.header_mem (cs : SGTIN.Coding) : cs.header ∈ Cls.binaryHeaders .sgtin := by cases cs <;> decide

theorem SSCC.binary_signed {x : SSCC} {cs : SSCC.Coding} {f : Fin 8} {b : Str} (h : x.binary cs f = .ok b) :
    ∃ r, Signed r ∧ b = cs.header ++ r := by
  unfold SSCC.binary at h
  obtain ⟨r0, h0, h⟩ := bind_ok_iff.1 h
  obtain ⟨r1, h1, h⟩ := bind_ok_iff.1 h
  cases h
  exact ⟨_, (Signed.append (signed_strToBinary h0) (Signed.append (signed_encodePartitionTable h1) (Signed.zeros 24))), by simp only [List.append_assoc]⟩

theorem SSCC.header_mem (cs : SSCC.Coding) : cs.header ∈ Cls.binaryHeaders .sscc := by cases cs <;> decide

theorem SGLN.binary_signed {x : SGLN} {cs : SGLN.Coding} {f : Fin 8} {b : Str} (h : x.binary cs f = .ok b) :
    ∃ r, Signed r ∧ b = cs.header ++ r := by
  unfold SGLN.binary at h
  obtain ⟨r0, h0, h⟩ := bind_ok_iff.1 h
  obtain ⟨r1, h1, h⟩ := bind_ok_iff.1 h
  dsimp only at h
  split at h
  · obtain ⟨r2, h2, h⟩ := bind_ok_iff.1 h
    cases h
    exact ⟨_, (Signed.append (signed_strToBinary h0) (Signed.append (signed_encodePartitionTable h1) (signed_strToBinary h2))), by simp only [List.append_assoc]⟩
  · obtain ⟨r2, h2, h⟩ := bind_ok_iff.1 h
    cases h
    exact ⟨_, (Signed.append (signed_strToBinary h0) (Signed.append (signed_encodePartitionTable h1) (signed_encodeString h2))), by simp only [List.append_assoc]⟩

theorem SGLN.header_mem (cs : SGLN.Coding) : cs.header ∈ Cls.binaryHeaders .sgln := by cases cs <;> decide

theorem GRAI.binary_signed {x : GRAI} {cs : GRAI.Coding} {f : Fin 8} {b : Str} (h : x.binary cs f = .ok b) :
    ∃ r, Signed r ∧ b = cs.header ++ r := by
  unfold GRAI.binary at h
  obtain ⟨r0, h0, h⟩ := bind_ok_iff.1 h
  obtain ⟨r1, h1, h⟩ := bind_ok_iff.1 h
  dsimp only at h
  split at h
  · obtain ⟨r2, h2, h⟩ := bind_ok_iff.1 h
    cases h
    exact ⟨_, (Signed.append (signed_strToBinary h0) (Signed.append (signed_encodePartitionTable h1) (signed_strToBinary h2))), by simp only [List.append_assoc]⟩
  · obtain ⟨r2, h2, h⟩ := bind_ok_iff.1 h
    cases h
    exact ⟨_, (Signed.append (signed_strToBinary h0) (Signed.append (signed_encodePartitionTable h1) (signed_encodeString h2))), by simp only [List.append_assoc]⟩

theorem GRAI.header_mem (cs : GRAI.Coding) : cs.header ∈ Cls.binaryHeaders .grai := by cases cs <;> decide

theorem GIAI.binary_signed {x : GIAI} {cs : GIAI.Coding} {f : Fin 8} {b : Str} (h : x.binary cs f = .ok b) :
    ∃ r, Signed r ∧ b = cs.header ++ r := by
  unfold GIAI.binary at h
  obtain ⟨r0, h0, h⟩ := bind_ok_iff.1 h
  dsimp only at h
  split at h
  · obtain ⟨r1, h1, h⟩ := bind_ok_iff.1 h
    cases h
    exact ⟨_, (Signed.append (signed_strToBinary h0) (signed_encodePartitionTable h1)), by simp only [List.append_assoc]⟩
  · obtain ⟨r1, h1, h⟩ := bind_ok_iff.1 h
    cases h
    exact ⟨_, (Signed.append (signed_strToBinary h0) (signed_encodePartitionTable h1)), by simp only [List.append_assoc]⟩

theorem GIAI.header_mem (cs : GIAI.Coding) : cs.header ∈ Cls.binaryHeaders .giai := by cases cs <;> decide

theorem GSRN.binary_signed {x : GSRN} {cs : GSRN.Coding} {f : Fin 8} {b : Str} (h : x.binary cs f = .ok b) :
    ∃ r, Signed r ∧ b = cs.header ++ r := by
  unfold GSRN.binary at h
  obtain ⟨r0, h0, h⟩ := bind_ok_iff.1 h
  obtain ⟨r1, h1, h⟩ := bind_ok_iff.1 h
  cases h
  exact ⟨_, (Signed.append (signed_strToBinary h0) (Signed.append (signed_encodePartitionTable h1) (Signed.zeros 24))), by simp only [List.append_assoc]⟩

theorem GSRN.header_mem (cs : GSRN.Coding) : cs.header ∈ Cls.binaryHeaders .gsrn := by cases cs <;> decide

theorem GSRNP.binary_signed {x : GSRNP} {cs : GSRNP.Coding} {f : Fin 8} {b : Str} (h : x.binary cs f = .ok b) :
    ∃ r, Signed r ∧ b = cs.header ++ r := by
  unfold GSRNP.binary at h
  obtain ⟨r0, h0, h⟩ := bind_ok_iff.1 h
  obtain ⟨r1, h1, h⟩ := bind_ok_iff.1 h
  cases h
  exact ⟨_, (Signed.append (signed_strToBinary h0) (Signed.append (signed_encodePartitionTable h1) (Signed.zeros 24))), by simp only [List.append_assoc]⟩

theorem GSRNP.header_mem (cs : GSRNP.Coding) : cs.header ∈ Cls.binaryHeaders .gsrnp := by cases cs <;> decide

theorem GDTI.binary_signed {x : GDTI} {cs : GDTI.Coding} {f : Fin 8} {b : Str} (h : x.binary cs f = .ok b) :
    ∃ r, Signed r ∧ b = cs.header ++ r := by
  unfold GDTI.binary at h
  obtain ⟨r0, h0, h⟩ := bind_ok_iff.1 h
  obtain ⟨r1, h1, h⟩ := bind_ok_iff.1 h
  dsimp only at h
  split at h
  · obtain ⟨r2, h2, h⟩ := bind_ok_iff.1 h
    cases h
    exact ⟨_, (Signed.append (signed_strToBinary h0) (Signed.append (signed_encodePartitionTable h1) (signed_strToBinary h2))), by simp only [List.append_assoc]⟩
  · obtain ⟨r2, h2, h⟩ := bind_ok_iff.1 h
    cases h
    exact ⟨_, (Signed.append (signed_strToBinary h0) (Signed.append (signed_encodePartitionTable h1) (signed_encodeString h2))), by simp only [List.append_assoc]⟩

theorem GDTI.header_mem (cs : GDTI.Coding) : cs.header ∈ Cls.binaryHeaders .gdti := by cases cs <;> decide

theorem CPI.binary_signed {x : CPI} {cs : CPI.Coding} {f : Fin 8} {b : Str} (h : x.binary cs f = .ok b) :
    ∃ r, Signed r ∧ b = cs.header ++ r := by
  unfold CPI.binary at h
  obtain ⟨r0, h0, h⟩ := bind_ok_iff.1 h
  dsimp only at h
  split at h
  · obtain ⟨r1, h1, h⟩ := bind_ok_iff.1 h
    obtain ⟨r2, h2, h⟩ := bind_ok_iff.1 h
    cases h
    exact ⟨_, (Signed.append (signed_strToBinary h0) (Signed.append (signed_encodePartitionTable h1) (signed_strToBinary h2))), by simp only [List.append_assoc]⟩
  · obtain ⟨r1, h1, h⟩ := bind_ok_iff.1 h
    obtain ⟨r2, h2, h⟩ := bind_ok_iff.1 h
    cases h
    exact ⟨_, (Signed.append (signed_strToBinary h0) (Signed.append (signed_encodePartitionTable h1) (signed_strToBinary h2))), by simp only [List.append_assoc]⟩

theorem CPI.header_mem (cs : CPI.Coding) : cs.header ∈ Cls.binaryHeaders .cpi := by cases cs <;> decide

theorem SGCN.binary_signed {x : SGCN} {cs : SGCN.Coding} {f : Fin 8} {b : Str} (h : x.binary cs f = .ok b) :
    ∃ r, Signed r ∧ b = cs.header ++ r := by
  unfold SGCN.binary at h
  obtain ⟨r0, h0, h⟩ := bind_ok_iff.1 h
  obtain ⟨r1, h1, h⟩ := bind_ok_iff.1 h
  obtain ⟨r2, h2, h⟩ := bind_ok_iff.1 h
  cases h
  exact ⟨_, (Signed.append (signed_strToBinary h0) (Signed.append (signed_encodePartitionTable h1) (signed_encodeNumericString h2))), by simp only [List.append_assoc]⟩

theorem SGCN.header_mem (cs : SGCN.Coding) : cs.header ∈ Cls.binaryHeaders .sgcn := by cases cs <;> decide

theorem ITIP.binary_signed {x : ITIP} {cs : ITIP.Coding} {f : Fin 8} {b : Str} (h : x.binary cs f = .ok b) :
    ∃ r, Signed r ∧ b = cs.header ++ r := by
  unfold ITIP.binary at h
  obtain ⟨r0, h0, h⟩ := bind_ok_iff.1 h
  obtain ⟨r1, h1, h⟩ := bind_ok_iff.1 h
  obtain ⟨r2, h2, h⟩ := bind_ok_iff.1 h
  obtain ⟨r3, h3, h⟩ := bind_ok_iff.1 h
  dsimp only at h
  split at h
  · obtain ⟨r4, h4, h⟩ := bind_ok_iff.1 h
    cases h
    exact ⟨_, (Signed.append (signed_strToBinary h0) (Signed.append (signed_encodePartitionTable h1) (Signed.append (signed_encodeFixedWidthInteger h2) (Signed.append (signed_encodeFixedWidthInteger h3) (signed_strToBinary h4))))), by simp only [List.append_assoc]⟩
  · obtain ⟨r4, h4, h⟩ := bind_ok_iff.1 h
    cases h
    exact ⟨_, (Signed.append (signed_strToBinary h0) (Signed.append (signed_encodePartitionTable h1) (Signed.append (signed_encodeFixedWidthInteger h2) (Signed.append (signed_encodeFixedWidthInteger h3) (signed_encodeString h4))))), by simp only [List.append_assoc]⟩

theorem ITIP.header_mem (cs : ITIP.Coding) : cs.header ∈ Cls.binaryHeaders .itip := by cases cs <;> decide

theorem GID.binary_signed {x : GID} {cs : GID.Coding} {b : Str} (h : x.binary cs = .ok b) :
    ∃ r, Signed r ∧ b = cs.header ++ r := by
  unfold GID.binary at h
  obtain ⟨r0, h0, h⟩ := bind_ok_iff.1 h
  obtain ⟨r1, h1, h⟩ := bind_ok_iff.1 h
  obtain ⟨r2, h2, h⟩ := bind_ok_iff.1 h
  cases h
  exact ⟨_, (Signed.append (signed_strToBinary h0) (Signed.append (signed_strToBinary h1) (signed_strToBinary h2))), by simp only [List.append_assoc]⟩

theorem GID.header_mem (cs : GID.Coding) : cs.header ∈ Cls.binaryHeaders .gid := by cases cs <;> decide

theorem USDOD.binary_signed {x : USDOD} {cs : USDOD.Coding} {f : Fin 16} {b : Str} (h : x.binary cs f = .ok b) :
    ∃ r, Signed r ∧ b = cs.header ++ r := by
  unfold USDOD.binary at h
  obtain ⟨r0, h0, h⟩ := bind_ok_iff.1 h
  obtain ⟨r2, h2, h⟩ := bind_ok_iff.1 h
  cases h
  exact ⟨_, (Signed.append (signed_strToBinary h0) (Signed.append (signed_encodeCageCode (padLeft ' ' 6 x.cage)) (signed_strToBinary h2))), by simp only [List.append_assoc]⟩

theorem USDOD.header_mem (cs : USDOD.Coding) : cs.header ∈ Cls.binaryHeaders .usdod := by cases cs <;> decide

theorem ADI.binary_signed {x : ADI} {cs : ADI.Coding} {f : Fin 64} {b : Str} (h : x.binary cs f = .ok b) :
    ∃ r, Signed r ∧ b = cs.header ++ r := by
  unfold ADI.binary at h
  obtain ⟨r0, h0, h⟩ := bind_ok_iff.1 h
  obtain ⟨r1, h1, h⟩ := bind_ok_iff.1 h
  obtain ⟨r2, h2, h⟩ := bind_ok_iff.1 h
  obtain ⟨r3, h3, h⟩ := bind_ok_iff.1 h
  cases h
  exact ⟨_, (Signed.append (signed_strToBinary h0) (Signed.append (signed_encodeCageCodeSixBits h1) (Signed.append (signed_encodeStringSixBits h2) (signed_encodeStringSixBits h3)))), by simp only [List.append_assoc]⟩

theorem ADI.header_mem (cs : ADI.Coding) : cs.header ∈ Cls.binaryHeaders .adi := by cases cs <;> decide

end Epc
