theorem take_decode {α : Type} {dec : Str → Except Err α} {b : Str} {n : Nat} (h : ∀ extra, dec (b.take n ++ extra) = dec (b.take n)) :
    dec (b.take n) = dec b := by
  have := h (b.drop n)
  rw [List.take_append_drop] at this
  exact this.symm

theorem takeWhile_of_all {p : Char → Bool} : ∀ {l : Str}, (∀ c ∈ l, p c = true) → l.takeWhile p = l
  | [], _ => rfl
  | a :: l, h => by
    rw [List.takeWhile_cons_of_pos (h a List.mem_cons_self), takeWhile_of_all fun c hc => h c (List.mem_cons_of_mem _ hc)]

theorem bitField_small {b : Str} (hB : Bits b) (lo k : Nat) : bitField b lo k < 2 ^ k := by
  refine Nat.lt_of_lt_of_le (bitsNumber_lt (bits_take (bits_drop hB lo) k)) (Nat.pow_le_pow_right (by decide) ?_)
  rw [List.length_take]
  exact Nat.min_le_left _ _

/-- GIAI-96. -/
theorem C64_giai96 (b : Str) (x : GIAI) (hB : Bits b) (hb : b.take 8 = py "00110100") (hx : GIAI.fromBinary b = .ok x) :
    ∃ f : Fin 8, f.val = bitField b 8 3 ∧ (∃ t, x.tagUri .giai96 f = .ok t ∧ GIAI.fromTagUri t = .ok x) ∧
      ∃ b', x.binary .giai96 f = .ok b' ∧ GIAI.fromBinary b' = .ok x := by
  by_cases hl : 96 ≤ b.length
  case neg => rw [C28_giai96 b hb (by omega)] at hx; cases hx
  obtain ⟨f, hf, hbin⟩ := C30_giai96 b x hB hb hx
  refine ⟨f, hf, ?_, _, hbin, ?_⟩
  rotate_left
  · rw [take_decode fun extra => C27_giai96 _ extra (by rw [List.take_take]; exact hb) (by rw [List.length_take]; omega)]; exact hx
  have H := C52_giai96 hB hb hl
  by_cases hK : ∃ C D, FreeFields b 85 C D
  case neg => rw [H.2 hK] at hx; cases hx
  obtain ⟨C, D, hF⟩ := hK
  obtain ⟨y, hy, hu⟩ := H.1 C D hF
  rw [hx] at hy; cases hy
  obtain ⟨-, -, -, -, -, -, -, -, hcol, -⟩ := freeFields_facts hB hF
  obtain ⟨p, hp, -, hC, hD⟩ := hF
  obtain ⟨u, hn⟩ := GIAI.fromBinary_made b x hx
  have hn' := hn
  obtain ⟨C', S', ⟨hC', hS'⟩, -, eu, rfl⟩ := GIAI.new_iff.1 hn
  dsimp only at hu
  have ee := uri2_inj (q := py "urn:epc:id:giai") hC'.2.no_dot (dec_digits hC.1).no_dot (eu.symm.trans hu)
  obtain ⟨e1, e2⟩ := ee
  have e2 : S' = D := e2
  subst e1 e2
  have hs : (split ':' S').headD [] = S' := by rw [split_notMem hcol]; rfl
  have hlt : number S' < 2 ^ (82 - prefixBits (12 - p)) := by
    rw [hD.2]
    exact bitField_small hB _ _
  have hlen : S'.length ≤ 13 + p := by
    have e := plain_iff.1 hD
    have h1 : number S' < 10 ^ (13 + p) := Nat.lt_of_lt_of_le hlt (by
      have : ∀ p ≤ 6, 2 ^ (82 - prefixBits (12 - p)) ≤ 10 ^ (13 + p) := by decide
      exact this p hp)
    have := natStr_length_le (by omega) h1
    rw [hD.2, ← e] at this
    exact this
  have hCl := hC.2.1
  have ht := (C17_giai u _ f hn').1 ⟨by dsimp only; rw [hs]; exact hD.1, by dsimp only; rw [hs, hCl]; omega, by dsimp only; rw [hs, hCl]; exact hlt⟩
  have hcol' : ':' ∉ C' ++ '.' :: S' := by
    simp only [List.mem_append, List.mem_cons, not_or]
    exact ⟨fun h => absurd (hC.1 _ h) (by decide), by decide, hcol⟩
  exact ⟨_, ht, C16_giai_partial (C' ++ '.' :: S') _ _ f _ hcol' (by have := hn'; rw [hu] at this ⊢; exact this) ht⟩

theorem GIAI.tagUri_congr {x y : GIAI} (h1 : x.companyPref = y.companyPref) (h2 : x.assetRef = y.assetRef) (cs : GIAI.Coding) (f : Fin 8) :
    x.tagUri cs f = y.tagUri cs f := by
  cases x; cases y
  dsimp only at h1 h2
  subst h1 h2
  rfl

theorem GIAI.binary_congr {x y : GIAI} (h1 : x.companyPref = y.companyPref) (h2 : x.assetRef = y.assetRef) (cs : GIAI.Coding) (f : Fin 8) :
    x.binary cs f = y.binary cs f := by
  cases x; cases y
  dsimp only at h1 h2
  subst h1 h2
  rfl

/-- GIAI-202: if the reference has a ':', another object comes back, one without the ':' and what follows. -/
theorem C64_giai202 (b body : Str) (x : GIAI) (hB : Bits b) (hb : b.take 8 = py "00111000") (hx : GIAI.fromBinary b = .ok x)
    (hu : x.epcUri = py "urn:epc:id:giai:" ++ body) :
    ∃ f : Fin 8, f.val = bitField b 8 3 ∧ ∃ t b', x.tagUri .giai202 f = .ok t ∧ x.binary .giai202 f = .ok b' ∧
      (':' ∉ body → GIAI.fromTagUri t = .ok x ∧ GIAI.fromBinary b' = .ok x) ∧
      (':' ∈ body → GIAI.fromTagUri t ≠ .ok x ∧ GIAI.fromBinary b' ≠ .ok x) := by
  by_cases hl : 202 ≤ b.length
  case neg => rw [C28_giai202 b hb (by omega)] at hx; cases hx
  refine ⟨⟨_, bitField_lt hB (lo := 8) (k := 3) (by omega)⟩, rfl, ?_⟩
  generalize (⟨_, _⟩ : Fin 8) = f
  have H := C53_giai202 hB hb hl
  by_cases hK : ∃ C raw, TextFields b 191 C raw
  case neg => rw [H.2 hK] at hx; cases hx
  obtain ⟨C, raw, hF⟩ := hK
  obtain ⟨h1, h2, h3⟩ := H.1 C raw _ hF rfl
  generalize hh : raw.takeWhile (· ≠ ':') = head at h1 h2 h3
  by_cases hr : (∀ c ∈ raw, c ∈ gs82) ∧ head ≠ [] ∧ (LoneLetterEscapes head → C.length + (escape head).length ≤ 30)
  case neg => rw [h2 hr] at hx; cases hx
  by_cases hlo : LoneLetterEscapes head
  case neg => obtain ⟨e, he, -⟩ := h3 hlo; rw [he] at hx; cases hx
  obtain ⟨y, hy, hu'⟩ := h1 hr.1 hr.2.1 hlo (hr.2.2 hlo)
  rw [hx] at hy; cases hy
  have hbody : body = C ++ '.' :: escape raw := List.append_cancel_left (hu.symm.trans hu')
  have hC : Digits C := by obtain ⟨_, _, _, hC, _⟩ := hF; exact hC.1
  have hCne : C ≠ [] := by obtain ⟨p, hp, _, hC, _⟩ := hF; exact ne_nil_of_length hC.2.1 (by omega)
  have hCl : 6 ≤ C.length ∧ C.length ≤ 12 := by obtain ⟨p, hp, _, hC, _⟩ := hF; have := hC.2.1; omega
  have hhg : ∀ c ∈ head, c ∈ gs82 := fun c hc => hr.1 c (by rw [← hh] at hc; exact List.takeWhile_subset _ hc)
  have hmem : ∀ {r : Str}, (∀ c ∈ r, c ∈ gs82) → (':' ∈ escape r ↔ ':' ∈ r) := by
    intro r hr
    unfold escape
    rw [List.mem_flatMap]
    constructor
    · rintro ⟨c, hc, h⟩
      have : ∀ c ∈ gs82, ':' ∈ escChar c → c = ':' := by decide +kernel
      rw [← this c (hr c hc) h]; exact hc
    · exact fun h => ⟨':', h, by decide⟩
  have hnot : ':' ∉ head := by
    rw [← hh]
    intro h
    have := List.all_takeWhile (l := raw) (p := (· ≠ ':'))
    exact absurd (List.all_eq_true.1 this _ h) (by decide)
  have hhc : ':' ∉ escape head := fun h => hnot ((hmem hhg).1 h)
  have hs0 : (split ':' (escape head)).headD [] = escape head := by rw [split_notMem hhc]; rfl
  have hn0 := GIAI.new_iff.2 ⟨C, escape head, ⟨⟨hCne, dec_digits hC⟩, gs3a3_escape hhg hr.2.1⟩,
    ⟨hCl, by rw [hs0]; exact (verify_escape_iff hhg hr.2.1).2 hlo, by rw [hs0]; exact hr.2.2 hlo⟩, rfl, rfl⟩
  have hcol0 : ':' ∉ C ++ '.' :: escape head := by
    simp only [List.mem_append, List.mem_cons, not_or]
    exact ⟨fun h => absurd (hC _ h) (by decide), by decide, hhc⟩
  have ha0 : Ascii (C ++ '.' :: escape head) :=
    ascii_append.2 ⟨ascii_of_digits hC, ascii_cons.2 ⟨by decide, gs3a3_ascii (gs3a3_escape hhg hr.2.1)⟩⟩
  have ht0 := C47_giai _ _ f hn0
  have hft0 := C16_giai_partial (C ++ '.' :: escape head) _ _ f _ hcol0 hn0 ht0
  obtain ⟨b', hb0, hfb0⟩ := C22_giai202_partial (C ++ '.' :: escape head) _ f ha0 hcol0 hn0 ⟨head, hr.2.1, hhg, hs0⟩
  obtain ⟨u, hn⟩ := GIAI.fromBinary_made b x hx
  obtain ⟨C', S', ⟨hC', hS'⟩, -, eu, rfl⟩ := GIAI.new_iff.1 hn
  dsimp only at hu hu'
  obtain ⟨e1, e2⟩ := uri2_inj (q := py "urn:epc:id:giai") hC'.2.no_dot (dec_digits hC).no_dot (eu.symm.trans hu')
  have e2 : S' = escape raw := e2
  subst e1 e2
  have hs : (split ':' (escape raw)).headD [] = (split ':' (escape head)).headD [] := by rw [split_escape_colon, hh, hs0]
  generalize hx0 : (⟨_, C', (split ':' (escape head)).headD [], _⟩ : GIAI) = x0 at hn0 ht0 hft0 hb0 hfb0
  have q1 : x0.companyPref = C' := by rw [← hx0]
  have q2 : x0.assetRef = (split ':' (escape head)).headD [] := by rw [← hx0]
  have q3 : x0.epcUri = py "urn:epc:id:giai:" ++ (C' ++ '.' :: escape head) := by rw [← hx0]; rfl
  refine ⟨_, b', (GIAI.tagUri_congr q1.symm (hs.trans q2.symm) _ _).trans ht0, (GIAI.binary_congr q1.symm (hs.trans q2.symm) _ _).trans hb0,
    fun hno => ?_, fun hyes => ?_⟩
  · have hraw : raw = head := by
      rw [← hh]
      symm
      refine takeWhile_of_all fun c hc => ?_
      have : c ≠ ':' := by
        rintro rfl
        rw [hbody] at hno
        exact hno (List.mem_append_right _ (List.mem_cons_of_mem _ ((hmem hr.1).2 hc)))
      simpa using this
    have : x0 = ⟨u, C', (split ':' (escape raw)).headD [], C' ++ replaceUriEscapes ((split ':' (escape raw)).headD [])⟩ := by
      rw [← hx0, eu, hraw]
    rw [← this]
    exact ⟨hft0, hfb0⟩
  · have key : ∀ {r : Except Err GIAI}, r = .ok x0 →
        r ≠ .ok ⟨u, C', (split ':' (escape raw)).headD [], C' ++ replaceUriEscapes ((split ':' (escape raw)).headD [])⟩ := by
      rintro _ rfl h
      injection h with h
      rw [h] at q3
      have hb2 : body = C' ++ '.' :: escape head := List.append_cancel_left (hu.symm.trans q3)
      rw [hb2] at hyes
      exact hcol0 hyes
    exact ⟨key hft0, key hfb0⟩

/-- CPI-96: the tag URI is refused if company prefix and reference have more than 15 digits together. -/
theorem C64_cpi96 (b : Str) (x : CPI) (hB : Bits b) (hb : b.take 8 = py "00111100") (hx : CPI.fromBinary b = .ok x) :
    ∃ f : Fin 8, f.val = bitField b 8 3 ∧
      ((x.companyPref.length + x.cpRef.length ≤ 15 → ∃ t, x.tagUri .cpi96 f = .ok t ∧ CPI.fromTagUri t = .ok x) ∧
        (¬ x.companyPref.length + x.cpRef.length ≤ 15 → x.tagUri .cpi96 f = .error .convert)) ∧
      ∃ b', x.binary .cpi96 f = .ok b' ∧ CPI.fromBinary b' = .ok x := by
  by_cases hl : 96 ≤ b.length
  case neg => rw [C28_cpi96 b hb (by omega)] at hx; cases hx
  obtain ⟨f, hf, hbin⟩ := C30_cpi96 b x hB hb hx
  refine ⟨f, hf, ?_, _, hbin, ?_⟩
  rotate_left
  · rw [take_decode fun extra => C27_cpi96 _ extra (by rw [List.take_take]; exact hb) (by rw [List.length_take]; omega)]; exact hx
  have H := C52_cpi96 hB hb hl
  by_cases hK : ∃ C D, FreeFields b 54 C D
  case neg => rw [H.2 hK] at hx; cases hx
  obtain ⟨C, D, hF⟩ := hK
  have hP : Plain (bitField b 65 31) (natStr (bitField b 65 31)) := plain_iff.2 rfl
  have hlt := bitField_small hB 65 31
  obtain ⟨y, hy, hu⟩ := H.1 C D _ hF hP
  rw [hx] at hy; cases hy
  obtain ⟨p, hp, -, hC, hD⟩ := hF
  obtain ⟨u, hn⟩ := CPI.fromBinary_made b x hx
  have hn' := hn
  obtain ⟨C', D', S', ⟨hC', hD', hS'⟩, -, eu, rfl⟩ := CPI.new_iff.1 hn
  dsimp only at hu ⊢
  obtain ⟨e1, e2, e3⟩ := uri3_inj (q := py "urn:epc:id:cpi") hC'.2.no_dot (cpref_no_dot hD') (dec_digits hC.1).no_dot (dec_digits hD.1.1).no_dot (eu.symm.trans hu)
  have e3 : S' = natStr (bitField b 65 31) := e3
  subst e1 e2 e3
  obtain ⟨t1, t2⟩ := C17_cpi (joinWith '.' [C', D', natStr (bitField b 65 31)]) _ f (by rw [← hu]; exact hn')
  dsimp only at t1 t2
  have hser : unumber (natStr (bitField b 65 31)) < 2 ^ 31 := by rw [unumber_of_digits hP.1.1, hP.2]; exact hlt
  refine ⟨fun h => ⟨_, t1 ⟨hser, hD.1, h⟩, C16_cpi u _ _ f _ hn' (t1 ⟨hser, hD.1, h⟩)⟩, fun h => t2 fun ⟨_, _, h'⟩ => h h'⟩

/-- A CPI-96 tag with the reference 2047 after a company prefix of 12 digits: it can be read and written, but has no tag URI. -/
theorem C64_cpi96_no_tag_uri :
    ((do let x ← CPI.fromBinary (layout [(8, 60), (3, 0), (3, 0), (40, 952114100000), (11, 2047), (31, 5)])
         return (x.epcUri, (x.tagUri .cpi96 0).isOk)) : Except Err (Str × Bool)) = .ok (py "urn:epc:id:cpi:952114100000.2047.5", false) := by
  decide +kernel

/-- GID-96. -/
theorem C64_gid96 (b : Str) (x : GID) (hB : Bits b) (hb : b.take 8 = py "00110101") (hx : GID.fromBinary b = .ok x) :
    (∃ t, x.tagUri .gid96 = .ok t ∧ GID.fromTagUri t = .ok x) ∧ ∃ b', x.binary .gid96 = .ok b' ∧ GID.fromBinary b' = .ok x := by
  by_cases hl : 96 ≤ b.length
  case neg => rw [C28_gid96 b hb (by omega)] at hx; cases hx
  obtain ⟨u, hn⟩ := GID.fromBinary_made b x hx
  have hbin := C30_gid96 b x hB hb hx
  have ht : ∃ t, x.tagUri .gid96 = .ok t := ⟨_, rfl⟩
  obtain ⟨t, ht⟩ := ht
  refine ⟨⟨t, ht, C16_gid u _ _ _ hn ht⟩, _, hbin, ?_⟩
  rw [take_decode fun extra => C27_gid96 _ extra (by rw [List.take_take]; exact hb) (by rw [List.length_take]; omega)]
  exact hx

/-- USDOD-96. -/
theorem C64_usdod96 (b : Str) (x : USDOD) (hB : Bits b) (hb : b.take 8 = py "00101111") (hx : USDOD.fromBinary b = .ok x) :
    ∃ f : Fin 16, f.val = bitField b 8 4 ∧ (∃ t, x.tagUri .usdod96 f = .ok t ∧ USDOD.fromTagUri t = .ok x) ∧
      ∃ b', x.binary .usdod96 f = .ok b' ∧ USDOD.fromBinary b' = .ok x := by
  by_cases hl : 96 ≤ b.length
  case neg => rw [C28_usdod96 b hb (by omega)] at hx; cases hx
  refine ⟨⟨_, bitField_small hB 8 4⟩, rfl, ?_⟩
  generalize (⟨_, _⟩ : Fin 16) = f
  have hP : Plain (bitField b 60 36) (natStr (bitField b 60 36)) := plain_iff.2 rfl
  obtain ⟨h1, h2⟩ := C52_usdod96 hB hb hl rfl hP
  by_cases hG : CageCode ((byteText b 12 6).filter (· ≠ ' '))
  case neg => rw [h2 hG] at hx; cases hx
  obtain ⟨y, hy, hu⟩ := h1 hG
  rw [hx] at hy; cases hy
  obtain ⟨u, hn⟩ := USDOD.fromBinary_made b x hx
  have eu : x.epcUri = u := by obtain ⟨_, _, _, _, _, rfl⟩ := USDOD.new_iff.1 hn; rfl
  rw [eu] at hu
  have ht : ∃ t, x.tagUri .usdod96 f = .ok t := ⟨_, rfl⟩
  obtain ⟨t, ht⟩ := ht
  refine ⟨⟨t, ht, C16_usdod u _ _ f _ hn ht⟩, C21_usdod96 u _ f ?_ hn⟩
  rw [hu]
  refine ascii_append.2 ⟨by decide, ascii_append.2 ⟨fun c hc => ?_, ascii_cons.2 ⟨by decide, ascii_of_digits (Digits_natStr _)⟩⟩⟩
  have : ∀ c ∈ cageChars, c.toNat < 128 := by decide
  exact this c (hG.1 c hc)

theorem cpiVar_long {b : Str} {x : CPI} (hB : Bits b) (hb : b.take 8 = py "00111101") (hx : CPI.fromBinary b = .ok x) :
    14 + prefixBits (12 - bitField b 11 3) ≤ b.length := by
  apply Classical.byContradiction
  intro hl
  have hF : Bits (b.drop 11) := bits_drop hB 11
  unfold CPI.fromBinary at hx
  rw [parseHeader_var (cs := CPI.Coding.cpiVar) (p := py "cpi") (sz := py "var") hb (by decide) (by decide) (by decide), ok_bind] at hx
  obtain ⟨⟨cpi, sb⟩, hd, hx⟩ := bind_ok_iff.1 hx
  dsimp only at hx
  obtain ⟨fi, hfi, hx⟩ := bind_ok_iff.1 hx
  obtain ⟨S, -, hx⟩ := bind_ok_iff.1 hx
  unfold CPI.decodeParts at hd
  rw [if_neg (by decide)] at hd
  dsimp only at hd
  obtain ⟨cpi', hpt, hd⟩ := bind_ok_iff.1 hd
  obtain ⟨p', -, hd⟩ := bind_ok_iff.1 hd
  obtain ⟨row', -, hd⟩ := bind_ok_iff.1 hd
  injection hd with hd
  injection hd with hd _
  subst hd
  unfold decodePartitionTable at hpt
  obtain ⟨p, hp, hpt⟩ := bind_ok_iff.1 hpt
  obtain ⟨row, hrow, hpt⟩ := bind_ok_iff.1 hpt
  obtain ⟨C, hC, hpt⟩ := bind_ok_iff.1 hpt
  dsimp only at hpt
  obtain ⟨D, hD, hpt⟩ := bind_ok_iff.1 hpt
  have h3 : (b.drop 11).take 3 ≠ [] := by rintro h; rw [h] at hp; cases hp
  rw [binaryToInt_bits (bits_take hF 3) h3] at hp
  injection hp with hp
  have hr : ∀ r ∈ CPI.tableVar, r.M = prefixBits (12 - r.P) := by decide
  have hrow' : row ∈ CPI.tableVar ∧ (row.P : Int) = p := by
    unfold rowByP at hrow
    split at hrow
    · next r hr' =>
      have : r = row := by unfold keyToConvert at hrow; injection hrow
      subst this
      exact ⟨List.mem_of_find?_eq_some hr', by simpa using List.find?_some hr'⟩
    · cases hrow
  have hM : row.M = prefixBits (12 - bitField b 11 3) := by
    rw [hr row hrow'.1]
    have : row.P = bitField b 11 3 := by
      have := hrow'.2.trans hp.symm
      exact Int.ofNat_inj.1 this
    rw [this]
  have hsl : slice (b.drop 11) 3 (3 + row.M) ≠ [] := by rintro h; rw [h] at hC; cases hC
  rw [slice_eq] at hC hsl hD
  rw [binaryToInt_bits (bits_take (bits_drop hF _) _) hsl] at hC
  injection hC with hC
  have hnil : (b.drop 11).drop (3 + row.M) = [] := by
    apply List.drop_of_length_le
    rw [List.length_drop]; omega
  rw [hnil] at hD
  have hD0 : D = [] := by
    have : decodeRef ([].take (3 + row.M + row.N - (3 + row.M))) row .sixBit = .ok [] := by
      rw [List.take_nil]
      rfl
    rw [this] at hD
    injection hD with hD
    exact hD.symm
  subst hD0
  have hfin : cpi' = padLeft '0' row.L (intStr C) ++ ['.'] := by
    split at hpt
    · cases hpt
    · have hpt : Except.ok (padLeft '0' row.L (intStr C) ++ '.' :: padLeft '0' 0 []) = Except.ok cpi' := hpt
      injection hpt with hpt
      exact hpt.symm
  have hlen : 11 < b.length := by
    apply Classical.byContradiction
    intro h
    apply h3
    rw [List.drop_of_length_le (by omega), List.take_nil]
  rw [slice_eq, binaryToInt_bits (bits_take (bits_drop hB 8) _)
    (ne_nil_of_length (n := 3) (by rw [List.length_take, List.length_drop]; omega) (by decide))] at hfi
  injection hfi with hfi
  subst hfi hC hfin
  rw [intStr_ofNat, intStr_ofNat] at hx
  have hCd := digits_padLeft (Digits_natStr (bitsNumber (((b.drop 11).drop 3).take (3 + row.M - 3)))) row.L
  generalize padLeft '0' row.L (natStr (bitsNumber (((b.drop 11).drop 3).take (3 + row.M - 3)))) = A at hx hCd
  generalize bitsNumber ((b.drop 8).take (11 - 8)) = n at hx
  have hx : Epc.fromTagUri CPI.new true (tagUriPrefix ++ CPI.Coding.value .cpiVar ++ ':' :: (natStr n ++ '.' :: (A ++ '.' :: ([] ++ '.' :: S)))) = .ok x := by
    rw [← hx]
    unfold CPI.fromTagUri
    congr 1
    simp
  rw [fromTagUri_filter (by decide) (num_natStr _)] at hx
  split at hx
  · obtain ⟨C', D', S', ⟨hC', hD', -⟩, -, hu, -⟩ := CPI.new_iff.1 hx
    obtain ⟨-, e2, -⟩ := uri3_inj (q := py "urn:epc:id:cpi") (dec_digits hCd).no_dot List.not_mem_nil hC'.2.no_dot (cpref_no_dot hD') hu
    subst e2
    obtain ⟨raw, hne, -, he⟩ := (lang_cpref _).1 hD'
    cases raw with
    | nil => exact hne rfl
    | cons c r =>
      have : escChar39 c ≠ [] := by unfold escChar39; split <;> (try split) <;> simp
      apply this
      unfold escape39 at he
      rw [List.flatMap_cons] at he
      exact (List.append_eq_nil_iff.1 he.symm).1
  · cases hx

theorem ascii_escape39 {raw : Str} (h : ∀ c ∈ raw, c ∈ gs39) : Ascii (escape39 raw) := by
  intro c hc
  unfold escape39 at hc
  obtain ⟨a, ha, hc⟩ := List.mem_flatMap.1 hc
  have : ∀ a ∈ gs39, ∀ c ∈ escChar39 a, c.toNat < 128 := by decide
  exact this a (h a ha) c hc

/-- CPI-var. -/
theorem C64_cpiVar (b : Str) (x : CPI) (hB : Bits b) (hb : b.take 8 = py "00111101") (hx : CPI.fromBinary b = .ok x) :
    ∃ f : Fin 8, f.val = bitField b 8 3 ∧ (∃ t, x.tagUri .cpiVar f = .ok t ∧ CPI.fromTagUri t = .ok x) ∧
      ∃ b', x.binary .cpiVar f = .ok b' ∧ CPI.fromBinary b' = .ok x := by
  refine ⟨⟨_, bitField_small hB 8 3⟩, rfl, ?_⟩
  generalize (⟨_, _⟩ : Fin 8) = f
  have hl := cpiVar_long hB hb hx
  have H := C54_cpi_var hB hb hl
  by_cases hK : ∃ C raw e, VarFields b C raw e
  case neg => rw [H.2 hK] at hx; cases hx
  obtain ⟨C, raw, e, hF⟩ := hK
  have hP : Plain (bitField b e 40) (natStr (bitField b e 40)) := plain_iff.2 rfl
  obtain ⟨h1, h2⟩ := H.1 C raw e _ hF hP
  by_cases hr : (∃ part, part ≠ [] ∧ (∀ c ∈ part, c ∈ gs39) ∧ escape39 raw = escape39 part) ∧ bitField b e 40 < 10 ^ 12 ∧ C.length + (escape39 raw).length ≤ 30
  case neg => rw [h2 hr] at hx; cases hx
  obtain ⟨⟨part, hne, hg, hesc⟩, hr2, hr3⟩ := hr
  obtain ⟨y, hy, hu⟩ := h1 part hne hg hesc hr2 hr3
  rw [hx] at hy; cases hy
  obtain ⟨u, hn⟩ := CPI.fromBinary_made b x hx
  have eu : x.epcUri = u := by obtain ⟨_, _, _, _, _, _, rfl⟩ := CPI.new_iff.1 hn; rfl
  rw [eu] at hu
  have hC : Digits C := by obtain ⟨_, _, _, hC, _⟩ := hF; exact hC.1
  have ht := C47_cpi _ _ f (by rw [hu] at hn; exact hn)
  have ha : Ascii u := by
    rw [hu]
    exact ascii_append.2 ⟨by decide, ascii_append.2 ⟨ascii_of_digits hC, ascii_cons.2 ⟨by decide, ascii_append.2 ⟨ascii_escape39 hg, ascii_cons.2 ⟨by decide,
      ascii_of_digits (Digits_natStr _)⟩⟩⟩⟩⟩
  obtain ⟨b', hb', hd⟩ := C23_cpi_any u [] x f ha hn
  rw [List.append_nil] at hd
  exact ⟨⟨_, ht, C16_cpi u _ _ f _ hn ht⟩, b', hb', hd⟩

/-- ADI-var: the object comes back exactly if the bits of the part number have no six zeros in a row, also together with the zeros that follow. -/
theorem C64_adiVar (b rp : Str) (x : ADI) (hB : Bits b) (hx : ADI.fromBinary b = .ok x) (hr : ∀ c ∈ rp, c ∈ gs39) (hp : x.partNumber = escape39 rp) :
    ∃ f : Fin 64, f.val = bitField b 8 6 ∧ (∃ t, x.tagUri .adiVar f = .ok t ∧ ADI.fromTagUri t = .ok x) ∧
      ∃ b', x.binary .adiVar f = .ok b' ∧ (ADI.fromBinary b' = .ok x ↔ ¬ EarlyTerminator rp) := by
  refine ⟨⟨_, bitField_small hB 8 6⟩, rfl, ?_⟩
  generalize (⟨_, _⟩ : Fin 64) = f
  obtain ⟨u, hn⟩ := ADI.fromBinary_made b x hx
  have ht : ∃ t, x.tagUri .adiVar f = .ok t := ⟨_, rfl⟩
  obtain ⟨t, ht⟩ := ht
  refine ⟨⟨t, ht, C16_adi u _ _ f _ hn ht⟩, ?_⟩
  by_cases hz : EarlyTerminator rp
  · obtain ⟨b', h1, h2⟩ := C23_adi_fails u rp x f 0 hn hr hp hz
    rw [List.replicate_zero, List.append_nil] at h2
    exact ⟨b', h1, fun h => absurd h h2, fun h => absurd hz h⟩
  · obtain ⟨b', h1, h2⟩ := C23_adi_partial u rp x f 0 hn hr hp hz
    rw [List.replicate_zero, List.append_nil] at h2
    exact ⟨b', h1, fun _ => hz, fun _ => h2⟩

/-- The hypotheses are met: the tags of TDS-like objects, one per kind of encoding, and tags with bits that are lost. -/
example : (SGTIN.fromBinary (layout ([(8, 54), (3, 5), (3, 5), (24, 614141), (20, 712345)] ++ textLayout 7 (py "32a/b") ++ [(105, 0)]))).isOk = true ∧
    (SGTIN.fromBinary (layout ([(8, 54), (3, 5), (3, 5), (24, 614141), (20, 712345), (7, 0)] ++ textLayout 7 (py "32a/b") ++ [(98, 0)]))).isOk = true ∧
    (SGLN.fromBinary (layout [(8, 50), (3, 1), (3, 0), (40, 952114100000), (1, 1), (41, 5678)])).isOk = true ∧
    (ITIP.fromBinary (layout [(8, 64), (3, 1), (3, 5), (24, 614141), (20, 712345), (7, 99), (7, 99), (38, 981)])).isOk = true ∧
    (GIAI.fromBinary (layout ([(8, 56), (3, 1), (3, 5), (24, 614141)] ++ textLayout 7 (py "a:b") ++ [(143, 0)]))).isOk = true ∧
    (USDOD.fromBinary (layout ([(8, 47), (4, 3)] ++ textLayout 8 (py " CAGEY") ++ [(36, 5678)]))).isOk = true ∧
    (CPI.fromBinary (layout ([(8, 61), (3, 3), (3, 5), (24, 614141)] ++ textLayout 6 (py "5PQ7/Z43") ++ [(6, 0), (40, 12345)]))).isOk = true := by
  decide +kernel

/-- An ADI tag whose part number ends before six zeros that are not aligned is read as an object with part number `P`; written again, it cannot be read. -/
example : ((do let x ← ADI.fromBinary (layout ([(8, 59), (6, 0)] ++ textLayout 6 (py " 35962") ++ textLayout 6 (py "P") ++ [(1, 1), (6, 0)] ++ textLayout 6 (py "M37") ++ [(6, 0)]))
               let b ← x.binary .adiVar 0
               return (x.epcUri, (ADI.fromBinary b).isOk)) : Except Err (Str × Bool)) = .ok (py "urn:epc:id:adi:35962.P.M37", false) := by
  decide +kernel

end Epc
