/-
C112: what is read from a tag survives every chain of conversions, executed from the source.

`Chain o r`: the object is written down in some notation, read by the general parser of the notation, written down again, …; `r` is the outcome
(`Spec/Program`).  Which URIs give objects that survive is C97, and C111 is about labels; here the object comes from the bits of a tag.  Most of the
conditions of C97 are always met then; what is left is `TagSafe` (`Spec/FromTag`).
-/
import Verif.Spec.FromTag
import Verif.Lemmas.FromTag
import Verif.Lemmas.PortableUri
import Verif.Props.C71
import Verif.Props.C97
import Verif.Props.C109

namespace Epc.Src
open Spec Grammar

private theorem escape_eq {a b : Str} (h : escape a = escape b) : a = b := by
  have := congrArg replaceUriEscapes h
  rwa [replaceUriEscapes_escape, replaceUriEscapes_escape] at this

private theorem not_group {k : Nat} {raw : Str} (h : Digits raw) : ¬ HasGroup k raw := by
  rintro ⟨p, m, q, rfl, -⟩
  exact absurd (h '(' (by simp)) (by decide)

private theorem safe3_sgtin {C D raw u : Str} (hC : '.' ∉ C) (hD : '.' ∉ D) (e : u = uri3 .sgtin C D (escape raw)) (h : ¬ HasGroup 2 raw) : TagSafe .sgtin u := by
  intro C' D' raw' hC' hD' e'
  rw [escape_eq (uri3_eq (p := uriPrefix .sgtin) hC' hD' hC hD (e'.symm.trans e)).2.2]
  exact h

private theorem safe3_sgln {C D raw u : Str} (hC : '.' ∉ C) (hD : '.' ∉ D) (e : u = uri3 .sgln C D (escape raw)) (h : ¬ HasGroup 3 raw) : TagSafe .sgln u := by
  intro C' D' raw' hC' hD' e'
  rw [escape_eq (uri3_eq (p := uriPrefix .sgln) hC' hD' hC hD (e'.symm.trans e)).2.2]
  exact h

private theorem safe_giai {C raw u : Str} (hC : '.' ∉ C) (e : u = uri2 .giai C (escape raw)) (h : ':' ∉ raw) : TagSafe .giai u := by
  intro C' raw' hC' e'
  rw [escape_eq (append_sep_inj hC' hC (List.append_cancel_left (as := uriPrefix .giai) (e'.symm.trans e))).2]
  exact h

private theorem safe_of_portable {c : Cls} {u : Str} (h : PortableUri c u) : TagSafe c u := by
  cases c <;> try exact trivial
  case sgtin =>
    obtain ⟨-, C, D, raw, h1, h2, e, hg⟩ := h
    exact safe3_sgtin h1 h2 e hg
  case sgln =>
    obtain ⟨-, C, D, raw, h1, h2, e, hg⟩ := h
    exact safe3_sgln h1 h2 e hg
  case giai =>
    obtain ⟨-, C, raw, h1, hg, e⟩ := h
    exact safe_giai h1 e hg
  case adi =>
    obtain ⟨C, raw, S, h1, hr, e, hg⟩ := h
    intro C' raw' S' h1' hr' e'
    rw [escape39_inj hr' hr (uri3_eq (p := uriPrefix .adi) h1' (escape39_no_dot hr') h1 (escape39_no_dot hr) (e'.symm.trans e)).2.1]
    exact hg

/-- The URI of an object that is read from the bits of a tag. -/
private theorem tag_uri {b : Str} {x : Scheme} (hB : Bits b) (h : binaryToTagEncodable b = .ok x) :
    ∃ c u, c.new u = .ok x ∧ (TagSafe c u → PortableUri c u) ∧ (b.take 8 ∉ textHeaders → TagSafe c u) := by
  unfold binaryToTagEncodable at h
  split at h
  · cases h
  rename_i c hl
  have hm := lookup_mem hl
  have hm' : (b.take 8, c) ∈ ([(py "00110000", .sgtin), (py "00110110", .sgtin), (py "00110001", .sscc), (py "00110010", .sgln), (py "00111001", .sgln), (py "00110011", .grai), (py "00110111", .grai), (py "00110100", .giai), (py "00111000", .giai), (py "00101101", .gsrn), (py "00101110", .gsrnp), (py "00101100", .gdti), (py "00111110", .gdti), (py "00111100", .cpi), (py "00111111", .sgcn), (py "01000000", .itip), (py "01000001", .itip), (py "00110101", .gid), (py "00101111", .usdod), (py "00111101", .cpi), (py "00111011", .adi)] : List (Str × Cls)) := by
    have : ∀ p ∈ binaryHeaderTable, p ∈ ([(py "00110000", .sgtin), (py "00110110", .sgtin), (py "00110001", .sscc), (py "00110010", .sgln), (py "00111001", .sgln), (py "00110011", .grai), (py "00110111", .grai), (py "00110100", .giai), (py "00111000", .giai), (py "00101101", .gsrn), (py "00101110", .gsrnp), (py "00101100", .gdti), (py "00111110", .gdti), (py "00111100", .cpi), (py "00111111", .sgcn), (py "01000000", .itip), (py "01000001", .itip), (py "00110101", .gid), (py "00101111", .usdod), (py "00111101", .cpi), (py "00111011", .adi)] : List (Str × Cls)) := by decide
    exact this _ hm
  simp only [List.mem_cons, Prod.mk.injEq, List.not_mem_nil, or_false] at hm'
  rcases hm' with ⟨hk, rfl⟩ | ⟨hk, rfl⟩ | ⟨hk, rfl⟩ | ⟨hk, rfl⟩ | ⟨hk, rfl⟩ | ⟨hk, rfl⟩ | ⟨hk, rfl⟩ | ⟨hk, rfl⟩ | ⟨hk, rfl⟩ | ⟨hk, rfl⟩ | ⟨hk, rfl⟩ | ⟨hk, rfl⟩ | ⟨hk, rfl⟩ | ⟨hk, rfl⟩ | ⟨hk, rfl⟩ | ⟨hk, rfl⟩ | ⟨hk, rfl⟩ | ⟨hk, rfl⟩ | ⟨hk, rfl⟩ | ⟨hk, rfl⟩ | ⟨hk, rfl⟩
  · obtain ⟨y, hy, rfl⟩ := map_ok_iff.1 h
    obtain ⟨u, hu, ha, C, D, raw, h1, h2, e, hd⟩ := SGTIN.tag_sgtin96 hB hk hy
    exact ⟨.sgtin, u, congrArg (Except.map Scheme.sgtin) hu, fun hs => ⟨ha, C, D, raw, h1, h2, e, hs C D raw h1 h2 e⟩, fun _ => safe3_sgtin h1 h2 e (not_group hd)⟩
  · obtain ⟨y, hy, rfl⟩ := map_ok_iff.1 h
    obtain ⟨u, hu, ha, C, D, raw, h1, h2, e⟩ := SGTIN.tag_sgtin198 hB hk hy
    exact ⟨.sgtin, u, congrArg (Except.map Scheme.sgtin) hu, fun hs => ⟨ha, C, D, raw, h1, h2, e, hs C D raw h1 h2 e⟩, fun hf => absurd (hk ▸ (by decide)) hf⟩
  · obtain ⟨y, hy, rfl⟩ := map_ok_iff.1 h
    obtain ⟨u, hu, ha⟩ := SSCC.tag_sscc96 hB hk hy
    exact ⟨.sscc, u, congrArg (Except.map Scheme.sscc) hu, fun _ => ha, fun _ => trivial⟩
  · obtain ⟨y, hy, rfl⟩ := map_ok_iff.1 h
    obtain ⟨u, hu, ha, C, D, raw, h1, h2, e, hd⟩ := SGLN.tag_sgln96 hB hk hy
    exact ⟨.sgln, u, congrArg (Except.map Scheme.sgln) hu, fun hs => ⟨ha, C, D, raw, h1, h2, e, hs C D raw h1 h2 e⟩, fun _ => safe3_sgln h1 h2 e (not_group hd)⟩
  · obtain ⟨y, hy, rfl⟩ := map_ok_iff.1 h
    obtain ⟨u, hu, ha, C, D, raw, h1, h2, e⟩ := SGLN.tag_sgln195 hB hk hy
    exact ⟨.sgln, u, congrArg (Except.map Scheme.sgln) hu, fun hs => ⟨ha, C, D, raw, h1, h2, e, hs C D raw h1 h2 e⟩, fun hf => absurd (hk ▸ (by decide)) hf⟩
  · obtain ⟨y, hy, rfl⟩ := map_ok_iff.1 h
    obtain ⟨u, hu, ha, C, D, raw, h1, h2, e, -⟩ := GRAI.tag_grai96 hB hk hy
    exact ⟨.grai, u, congrArg (Except.map Scheme.grai) hu, fun _ => ⟨ha, C, D, raw, h1, h2, e⟩, fun _ => trivial⟩
  · obtain ⟨y, hy, rfl⟩ := map_ok_iff.1 h
    obtain ⟨u, hu, ha, C, D, raw, h1, h2, e⟩ := GRAI.tag_grai170 hB hk hy
    exact ⟨.grai, u, congrArg (Except.map Scheme.grai) hu, fun _ => ⟨ha, C, D, raw, h1, h2, e⟩, fun _ => trivial⟩
  · obtain ⟨y, hy, rfl⟩ := map_ok_iff.1 h
    obtain ⟨u, hu, ha, C, raw, h1, e, hd⟩ := GIAI.tag_giai96 hB hk hy
    exact ⟨.giai, u, congrArg (Except.map Scheme.giai) hu, fun hs => ⟨ha, C, raw, h1, hs C raw h1 e, e⟩, fun _ => safe_giai h1 e fun h => absurd (hd _ h) (by decide)⟩
  · obtain ⟨y, hy, rfl⟩ := map_ok_iff.1 h
    obtain ⟨u, hu, ha, C, raw, h1, e⟩ := GIAI.tag_giai202 hB hk hy
    exact ⟨.giai, u, congrArg (Except.map Scheme.giai) hu, fun hs => ⟨ha, C, raw, h1, hs C raw h1 e, e⟩, fun hf => absurd (hk ▸ (by decide)) hf⟩
  · obtain ⟨y, hy, rfl⟩ := map_ok_iff.1 h
    obtain ⟨u, hu, ha⟩ := GSRN.tag_gsrn96 hB hk hy
    exact ⟨.gsrn, u, congrArg (Except.map Scheme.gsrn) hu, fun _ => ha, fun _ => trivial⟩
  · obtain ⟨y, hy, rfl⟩ := map_ok_iff.1 h
    obtain ⟨u, hu, ha⟩ := GSRNP.tag_gsrnp96 hB hk hy
    exact ⟨.gsrnp, u, congrArg (Except.map Scheme.gsrnp) hu, fun _ => ha, fun _ => trivial⟩
  · obtain ⟨y, hy, rfl⟩ := map_ok_iff.1 h
    obtain ⟨u, hu, ha, C, D, raw, h1, h2, e, -⟩ := GDTI.tag_gdti96 hB hk hy
    exact ⟨.gdti, u, congrArg (Except.map Scheme.gdti) hu, fun _ => ⟨ha, C, D, raw, h1, h2, e⟩, fun _ => trivial⟩
  · obtain ⟨y, hy, rfl⟩ := map_ok_iff.1 h
    obtain ⟨u, hu, ha, C, D, raw, h1, h2, e⟩ := GDTI.tag_gdti174 hB hk hy
    exact ⟨.gdti, u, congrArg (Except.map Scheme.gdti) hu, fun _ => ⟨ha, C, D, raw, h1, h2, e⟩, fun _ => trivial⟩
  · obtain ⟨y, hy, rfl⟩ := map_ok_iff.1 h
    obtain ⟨u, hu, ha⟩ := CPI.tag_cpi96 hB hk hy
    exact ⟨.cpi, u, congrArg (Except.map Scheme.cpi) hu, fun _ => ha, fun _ => trivial⟩
  · obtain ⟨y, hy, rfl⟩ := map_ok_iff.1 h
    obtain ⟨u, hu, ha⟩ := SGCN.tag_sgcn96 hB hk hy
    exact ⟨.sgcn, u, congrArg (Except.map Scheme.sgcn) hu, fun _ => ha, fun _ => trivial⟩
  · obtain ⟨y, hy, rfl⟩ := map_ok_iff.1 h
    obtain ⟨u, hu, ha, C, D, p, t, raw, h1, h2, h3, h4, e, l1, l2⟩ := ITIP.tag_itip110 hB hk hy
    exact ⟨.itip, u, congrArg (Except.map Scheme.itip) hu, fun _ => ⟨C, D, p, t, raw, h1, h2, h3, h4, e, l1, l2, .inl ha⟩, fun _ => trivial⟩
  · obtain ⟨y, hy, rfl⟩ := map_ok_iff.1 h
    obtain ⟨u, hu, ha, C, D, p, t, raw, h1, h2, h3, h4, e, l1, l2⟩ := ITIP.tag_itip212 hB hk hy
    exact ⟨.itip, u, congrArg (Except.map Scheme.itip) hu, fun _ => ⟨C, D, p, t, raw, h1, h2, h3, h4, e, l1, l2, .inl ha⟩, fun _ => trivial⟩
  · obtain ⟨y, hy, rfl⟩ := map_ok_iff.1 h
    obtain ⟨u, hu, ha⟩ := GID.tag_gid96 hB hk hy
    exact ⟨.gid, u, congrArg (Except.map Scheme.gid) hu, fun _ => ha, fun _ => trivial⟩
  · obtain ⟨y, hy, rfl⟩ := map_ok_iff.1 h
    obtain ⟨u, hu, ha⟩ := USDOD.tag_usdod96 hB hk hy
    exact ⟨.usdod, u, congrArg (Except.map Scheme.usdod) hu, fun _ => ha, fun _ => trivial⟩
  · obtain ⟨y, hy, rfl⟩ := map_ok_iff.1 h
    obtain ⟨u, hu, ha⟩ := CPI.tag_cpiVar hB hk hy
    exact ⟨.cpi, u, congrArg (Except.map Scheme.cpi) hu, fun _ => ha, fun _ => trivial⟩
  · obtain ⟨y, hy, rfl⟩ := map_ok_iff.1 h
    obtain ⟨u, hu⟩ := ADI.fromBinary_made b y hy
    refine ⟨.adi, u, congrArg (Except.map Scheme.adi) hu, fun hs => ?_, fun hf => absurd (hk ▸ (by decide)) hf⟩
    obtain ⟨C, D, S, ⟨hC, hD, -⟩, -, rfl, -⟩ := ADI.new_iff.1 hu
    obtain ⟨raw, hr, rfl⟩ := (lang_adiPart D).1 hD
    exact ⟨C, raw, S, cage_no_dot hC, fun c hc => (hr c hc).1, rfl, hs C raw S (cage_no_dot hC) (fun c hc => (hr c hc).1) rfl⟩

private theorem hex_read {h : Str} {y : Scheme} (hy : hexToTagEncodable h = .ok y) :
    HexString h ∧ binaryToTagEncodable (hexStringBits h) = .ok y := by
  have hs : HexString h := by
    apply Classical.byContradiction
    intro hn
    unfold hexToTagEncodable at hy
    rcases hexToBinary_other hn with e | ⟨b, e, hb⟩
    · rw [e, error_bind] at hy; cases hy
    · rw [e, ok_bind] at hy
      unfold binaryToTagEncodable at hy
      split at hy
      · cases hy
      · rename_i c hl
        have hm := lookup_mem hl
        have : ∀ p ∈ binaryHeaderTable, p.1.take 4 ≠ py "0000" ∧ p.1.head? ≠ some '-' := by decide
        have := this _ hm
        rcases hb with hb | hb
        · refine absurd ?_ this.1
          rw [List.take_take]; exact hb
        · refine absurd ?_ this.2
          cases b with
          | nil => cases hb
          | cons a b => exact hb
  refine ⟨hs, ?_⟩
  unfold hexToTagEncodable at hy
  rw [hexToBinary_string hs, ok_bind] at hy
  exact hy

private theorem bits_hexString (h : Str) : Bits (hexStringBits h) := by
  have key : ∀ w n, Bits (bitsOf w n) := by
    intro w
    induction w with
    | zero => intro n c hc; cases hc
    | succ w ih =>
      intro n c hc
      unfold bitsOf at hc
      rcases List.mem_append.1 hc with hc | hc
      · exact ih _ c hc
      · split at hc <;> (rw [List.mem_singleton.1 hc]; simp)
  intro c hc
  obtain ⟨p, -, hc⟩ := List.mem_flatMap.1 hc
  exact key _ _ c hc

private theorem made {c : Cls} {u : Str} {x : Scheme} (h : c.new u = .ok x) : construct (clOf c) [.str u] = .ok (objScheme x) := by
  rw [(C91_constructors c u).1, h]; rfl

private theorem exact_tag {b : Str} {x : Scheme} (hB : Bits b) (h : binaryToTagEncodable b = .ok x) :
    ∃ c u, construct (clOf c) [.str u] = .ok (objScheme x) ∧ ((∀ r, Chain (objScheme x) r → r = .ok (objScheme x)) ↔ TagSafe c u) := by
  obtain ⟨c, u, hu, h1, -⟩ := tag_uri hB h
  exact ⟨c, u, made hu, (C97_chain c u _ (made hu)).trans ⟨safe_of_portable, h1⟩⟩

private theorem safe_tag {b : Str} {x : Scheme} (hB : Bits b) (h : binaryToTagEncodable b = .ok x) (ht : b.take 8 ∉ textHeaders) (r : M Val)
    (hr : Chain (objScheme x) r) : r = .ok (objScheme x) := by
  obtain ⟨c, u, hu, h1, h2⟩ := tag_uri hB h
  exact (C97_chain c u _ (made hu)).2 (h1 (h2 ht)) r hr

private theorem base64_read {s : Str} {x : Scheme} (h : base64ToTagEncodable s = .ok x) : ∃ b, Bits b ∧ binaryToTagEncodable b = .ok x := by
  unfold base64ToTagEncodable at h
  obtain ⟨t, -, h⟩ := bind_ok_iff.1 h
  exact ⟨_, bits_hexString t, (hex_read h).2⟩

/-- `binary_to_tag_encodable`: the object read from a text of `0` and `1` arrives unchanged, whatever the chain, if and only if its URI meets the conditions. -/
theorem C112_binary (b : Str) (o : Val) (hB : Bits b) (h : function .binary_to_tag_encodable [.str b] [] = .ok o) :
    ∃ c u, construct (clOf c) [.str u] = .ok o ∧ read o .epc_uri = .ok (.str u) ∧ ((∀ r, Chain o r → r = .ok o) ↔ TagSafe c u) := by
  rw [C93_binary_to_tag_encodable] at h
  cases hx : binaryToTagEncodable b with
  | error e => rw [hx] at h; cases h
  | ok x =>
    rw [hx] at h
    cases h
    obtain ⟨c, u, h1, h2⟩ := exact_tag hB hx
    exact ⟨c, u, h1, (C97_uri c u _ h1).1, h2⟩

/-- `hex_to_tag_encodable`: every text that can be read. -/
theorem C112_hex (s : Str) (o : Val) (h : function .hex_to_tag_encodable [.str s] [] = .ok o) :
    ∃ c u, construct (clOf c) [.str u] = .ok o ∧ read o .epc_uri = .ok (.str u) ∧ ((∀ r, Chain o r → r = .ok o) ↔ TagSafe c u) := by
  rw [C93_hex_to_tag_encodable] at h
  cases hx : hexToTagEncodable s with
  | error e => rw [hx] at h; cases h
  | ok x =>
    rw [hx] at h
    cases h
    obtain ⟨c, u, h1, h2⟩ := exact_tag (bits_hexString s) (hex_read hx).2
    exact ⟨c, u, h1, (C97_uri c u _ h1).1, h2⟩

/-- `base64_to_tag_encodable`: every text that can be read. -/
theorem C112_base64 (s : Str) (o : Val) (h : function .base64_to_tag_encodable [.str s] [] = .ok o) :
    ∃ c u, construct (clOf c) [.str u] = .ok o ∧ read o .epc_uri = .ok (.str u) ∧ ((∀ r, Chain o r → r = .ok o) ↔ TagSafe c u) := by
  rw [C93_base64_to_tag_encodable] at h
  cases hx : base64ToTagEncodable s with
  | error e => rw [hx] at h; cases h
  | ok x =>
    rw [hx] at h
    cases h
    obtain ⟨b, hB, hb⟩ := base64_read hx
    obtain ⟨c, u, h1, h2⟩ := exact_tag hB hb
    exact ⟨c, u, h1, (C97_uri c u _ h1).1, h2⟩

/-- Without any condition on the object: a tag of another kind than SGTIN-198, SGLN-195, GIAI-202 and ADI. -/
theorem C112_always (b : Str) (o : Val) (hB : Bits b) (ht : b.take 8 ∉ textHeaders) (h : function .binary_to_tag_encodable [.str b] [] = .ok o)
    (r : M Val) (hr : Chain o r) : r = .ok o := by
  rw [C93_binary_to_tag_encodable] at h
  cases hx : binaryToTagEncodable b with
  | error e => rw [hx] at h; cases h
  | ok x => rw [hx] at h; cases h; exact safe_tag hB hx ht r hr

/-- The same for hexadecimal texts; the first byte is the header. -/
theorem C112_always_hex (s : Str) (o : Val) (ht : (hexStringBits s).take 8 ∉ textHeaders) (h : function .hex_to_tag_encodable [.str s] [] = .ok o)
    (r : M Val) (hr : Chain o r) : r = .ok o := by
  rw [C93_hex_to_tag_encodable] at h
  cases hx : hexToTagEncodable s with
  | error e => rw [hx] at h; cases h
  | ok x => rw [hx] at h; cases h; exact safe_tag (bits_hexString s) (hex_read hx).2 ht r hr

/-- Each of the conditions is needed: an SGTIN-198 tag with the serial number `(12)`, an SGLN-195 tag with the extension `(123)`, a GIAI-202 tag with the reference
`A:1`, an ADI tag with the part number `P` followed by a one bit.  The tags are read, and some chain loses the object. -/
theorem C112_needed : ∀ b ∈ [layout ([(8, 54), (3, 5), (3, 5), (24, 614141), (20, 712345)] ++ textLayout 7 (py "(12)") ++ [(112, 0)]),
      layout ([(8, 57), (3, 5), (3, 5), (24, 614141), (17, 12345)] ++ textLayout 7 (py "(123)") ++ [(105, 0)]),
      layout ([(8, 56), (3, 1), (3, 5), (24, 614141)] ++ textLayout 7 (py "A:1") ++ [(143, 0)]),
      layout ([(8, 59), (6, 0)] ++ textLayout 6 (py " 35962") ++ textLayout 6 (py "P") ++ [(1, 1), (6, 0)] ++ textLayout 6 (py "M37") ++ [(6, 0)])],
    ∃ o, function .binary_to_tag_encodable [.str b] [] = .ok o ∧ ∃ r, Chain o r ∧ r ≠ .ok o := by
  have key {b : Str} {c : Cls} {u : Str} (h1 : binaryToTagEncodable b = c.new u) (h2 : (c.new u).isOk = true) (h3 : ¬ TagSafe c u) :
      ∃ o, function .binary_to_tag_encodable [.str b] [] = .ok o ∧ ∃ r, Chain o r ∧ r ≠ .ok o := by
    cases hx : c.new u with
    | error e => rw [hx] at h2; cases h2
    | ok x =>
      refine ⟨objScheme x, by rw [C93_binary_to_tag_encodable, h1, hx]; rfl, ?_⟩
      apply Classical.byContradiction
      intro hr
      refine h3 (safe_of_portable ((C97_chain c u (objScheme x) (made hx)).1 fun r hc => ?_))
      exact Classical.byContradiction fun hn => hr ⟨r, hc, hn⟩
  intro b hb
  simp only [List.mem_cons, List.not_mem_nil, or_false] at hb
  rcases hb with rfl | rfl | rfl | rfl
  · exact key (c := .sgtin) (u := py "urn:epc:id:sgtin:0614141.712345.(12)") (by decide +kernel) (by decide +kernel)
      fun h => h (py "0614141") (py "712345") (py "(12)") (by decide) (by decide) rfl ⟨[], py "12", [], rfl, rfl⟩
  · exact key (c := .sgln) (u := py "urn:epc:id:sgln:0614141.12345.(123)") (by decide +kernel) (by decide +kernel)
      fun h => h (py "0614141") (py "12345") (py "(123)") (by decide) (by decide) rfl ⟨[], py "123", [], rfl, rfl⟩
  · exact key (c := .giai) (u := py "urn:epc:id:giai:0614141.A:1") (by decide +kernel) (by decide +kernel)
      fun h => h (py "0614141") (py "A:1") (by decide) rfl (by decide)
  · exact key (c := .adi) (u := py "urn:epc:id:adi:35962.P.M37") (by decide +kernel) (by decide +kernel)
      fun h => h (py "35962") (py "P") (py "M37") (by decide) (by decide) rfl (by decide +kernel)

/-- Tags of some kinds without a condition: SGTIN-96, SSCC-96, SGLN-96, GIAI-96, ITIP-110 with piece 99, USDOD-96, CPI-var. -/
example : ([layout [(8, 48), (3, 1), (3, 5), (24, 614141), (20, 712345), (38, 5678)], layout [(8, 49), (3, 1), (3, 5), (24, 614141), (34, 1234567890), (24, 0)],
    layout [(8, 50), (3, 1), (3, 0), (40, 952114100000), (1, 1), (41, 5678)], layout [(8, 52), (3, 1), (3, 5), (24, 614141), (58, 5678)],
    layout [(8, 64), (3, 1), (3, 5), (24, 614141), (20, 712345), (7, 99), (7, 99), (38, 981)], layout ([(8, 47), (4, 3)] ++ textLayout 8 (py " CAGEY") ++ [(36, 5678)]),
    layout ([(8, 61), (3, 3), (3, 5), (24, 614141)] ++ textLayout 6 (py "5PQ7/Z43") ++ [(6, 0), (40, 12345)])].map fun b =>
      (binaryToTagEncodable b).isOk && b.all (fun c => c = '0' ∨ c = '1') && (textHeaders.contains (b.take 8) = false : Bool)) = List.replicate 7 true := by decide +kernel

/-- An SGTIN-198 tag with the serial number `32a/b` is read, and meets the condition. -/
example : binaryToTagEncodable (layout ([(8, 54), (3, 5), (3, 5), (24, 614141), (20, 712345)] ++ textLayout 7 (py "32a/b") ++ [(105, 0)])) =
      Cls.new .sgtin (py "urn:epc:id:sgtin:0614141.712345.32a%2Fb") ∧ TagSafe .sgtin (py "urn:epc:id:sgtin:0614141.712345.32a%2Fb") := by
  refine ⟨by decide +kernel, safe3_sgtin (C := py "0614141") (D := py "712345") (raw := py "32a/b") (by decide) (by decide) rfl ?_⟩
  rintro ⟨p, m, q, e, -⟩
  have : '(' ∈ py "32a/b" := by rw [e]; simp
  revert this; decide

/-- A GID-96 tag in hexadecimal. -/
example : (hexToTagEncodable (py "350000001000002000000003")).isOk = true ∧ (hexStringBits (py "350000001000002000000003")).take 8 ∉ textHeaders := by
  decide +kernel

end Epc.Src
