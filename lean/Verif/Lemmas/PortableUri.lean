/-
The conditions on objects that survive chains of conversions, in terms of their URIs.
-/
import Verif.Spec.Program
import Verif.Spec.Relay
import Verif.Lemmas.Dispatch
import Verif.Lemmas.ElemParse

namespace Epc.Src
open Spec Grammar

theorem mem_escape_colon {raw : Str} (h : ':' ∈ raw) : ':' ∈ escape raw := List.mem_flatMap.2 ⟨':', h, by decide⟩

theorem uri3_eq {p a b c a' b' c' : Str} (ha : '.' ∉ a) (hb : '.' ∉ b) (ha' : '.' ∉ a') (hb' : '.' ∉ b')
    (h : p ++ (a ++ '.' :: (b ++ '.' :: c)) = p ++ (a' ++ '.' :: (b' ++ '.' :: c'))) : a = a' ∧ b = b' ∧ c = c' := by
  have e1 := append_sep_inj ha ha' (List.append_cancel_left h)
  exact ⟨e1.1, append_sep_inj hb hb' e1.2⟩

theorem portable_iff {c : Cls} {u : Str} {x : Scheme} (hu : c.new u = .ok x) : Portable x ↔ PortableUri c u := by
  cases c <;> obtain ⟨y, hy, rfl⟩ := map_ok_iff.1 hu
  case sgtin =>
    obtain ⟨C, D, S, ⟨⟨-, hC⟩, ⟨-, hD⟩, -⟩, -, rfl, rfl⟩ := SGTIN.new_iff.1 hy
    constructor
    · rintro ⟨ha, raw, e, hg⟩
      exact ⟨ha, C, D, raw, hC.no_dot, hD.no_dot, by rw [← e]; rfl, hg⟩
    · rintro ⟨ha, C', D', raw, h1, h2, e, hg⟩
      exact ⟨ha, raw, (uri3_eq (p := uriPrefix .sgtin) hC.no_dot hD.no_dot h1 h2 e).2.2, hg⟩
  case sgln =>
    obtain ⟨C, D, S, ⟨⟨-, hC⟩, hD, -⟩, -, rfl, rfl⟩ := SGLN.new_iff.1 hy
    constructor
    · rintro ⟨ha, raw, e, hg⟩
      exact ⟨ha, C, D, raw, hC.no_dot, hD.no_dot, by rw [← e]; rfl, hg⟩
    · rintro ⟨ha, C', D', raw, h1, h2, e, hg⟩
      exact ⟨ha, raw, (uri3_eq (p := uriPrefix .sgln) hC.no_dot hD.no_dot h1 h2 e).2.2, hg⟩
  case grai =>
    obtain ⟨C, D, S, ⟨⟨-, hC⟩, hD, -⟩, -, rfl, rfl⟩ := GRAI.new_iff.1 hy
    constructor
    · rintro ⟨ha, raw, e⟩
      exact ⟨ha, C, D, raw, hC.no_dot, hD.no_dot, by rw [← e]; rfl⟩
    · rintro ⟨ha, C', D', raw, h1, h2, e⟩
      exact ⟨ha, raw, (uri3_eq (p := uriPrefix .grai) hC.no_dot hD.no_dot h1 h2 e).2.2⟩
  case gdti =>
    obtain ⟨C, D, S, ⟨⟨-, hC⟩, hD, -⟩, -, rfl, rfl⟩ := GDTI.new_iff.1 hy
    constructor
    · rintro ⟨ha, raw, e⟩
      exact ⟨ha, C, D, raw, hC.no_dot, hD.no_dot, by rw [← e]; rfl⟩
    · rintro ⟨ha, C', D', raw, h1, h2, e⟩
      exact ⟨ha, raw, (uri3_eq (p := uriPrefix .gdti) hC.no_dot hD.no_dot h1 h2 e).2.2⟩
  case giai =>
    obtain ⟨C, S, ⟨⟨-, hC⟩, -⟩, -, rfl, rfl⟩ := GIAI.new_iff.1 hy
    have hs : ∀ {s : Str}, ':' ∉ s → (split ':' s).headD [] = s := fun h => by rw [split_notMem h]; rfl
    constructor
    · rintro ⟨ha, hn, raw, e⟩
      have hn' : ':' ∉ C ++ '.' :: S := hn
      have hS : ':' ∉ S := fun h => hn' (by simp [h])
      simp only [hs hS] at e
      exact ⟨ha, C, raw, hC.no_dot, fun h => hS (e ▸ mem_escape_colon h), by rw [← e]; rfl⟩
    · rintro ⟨ha, C', raw, h1, h2, e⟩
      obtain ⟨rfl, rfl⟩ := append_sep_inj hC.no_dot h1 (List.append_cancel_left (as := uriPrefix .giai) e)
      have hS := escape_no_colon h2
      refine ⟨ha, ?_, raw, hs hS⟩
      show ':' ∉ C ++ '.' :: escape raw
      intro h
      rcases List.mem_append.1 h with h | h
      · exact absurd (hC _ h) (by decide)
      · rcases List.mem_cons.1 h with h | h
        · cases h
        · exact hS h
  case itip =>
    obtain ⟨C, D, A, B, S, ⟨⟨-, hC⟩, ⟨-, hD⟩, ⟨-, hA⟩, ⟨-, hB⟩, -⟩, -, rfl, rfl⟩ := ITIP.new_iff.1 hy
    constructor
    · rintro ⟨ha, l1, l2, raw, e⟩
      exact ⟨C, D, A, B, raw, hC.no_dot, hD.no_dot, hA.no_dot, hB.no_dot, by rw [← e]; rfl, l1, l2, ha⟩
    · rintro ⟨C', D', A', B', raw, h1, h2, h3, h4, e, l1, l2, ha⟩
      obtain ⟨rfl, rfl, e5⟩ := uri3_eq (p := uriPrefix .itip) hC.no_dot hD.no_dot h1 h2 e
      obtain ⟨rfl, e6⟩ := append_sep_inj hA.no_dot h3 e5
      obtain ⟨rfl, e7⟩ := append_sep_inj hB.no_dot h4 e6
      exact ⟨ha, l1, l2, raw, e7⟩
  case lgtin =>
    obtain ⟨C, D, S, ⟨⟨-, hC⟩, ⟨-, hD⟩, -⟩, -, rfl, rfl⟩ := LGTIN.new_iff.1 hy
    constructor
    · rintro ⟨e, hg⟩
      refine ⟨C, D, _, hC.no_dot, hD.no_dot, e.trans ?_, hg⟩
      simp [uri3, uriPrefix]
    · rintro ⟨C', D', raw, h1, h2, e, hg⟩
      obtain ⟨rfl, rfl, rfl⟩ := uri3_eq (p := uriPrefix .lgtin) hC.no_dot hD.no_dot h1 h2 e
      refine ⟨?_, by simpa only [replaceUriEscapes_escape] using hg⟩
      simp [replaceUriEscapes_escape]
  case upui =>
    obtain ⟨C, D, S, ⟨⟨-, hC⟩, hD, -⟩, -, rfl, rfl⟩ := UPUI.new_iff.1 hy
    constructor
    · rintro (h | e)
      · exact ⟨C, D, S, hC.no_dot, hD.no_dot, rfl, .inl h⟩
      · refine ⟨C, D, S, hC.no_dot, hD.no_dot, rfl, .inr ⟨replaceUriEscapes S, ?_⟩⟩
        simpa using e
    · rintro ⟨C', D', S', h1, h2, e, h⟩
      obtain ⟨rfl, rfl, rfl⟩ := uri3_eq (p := uriPrefix .upui) hC.no_dot hD.no_dot h1 h2 e
      rcases h with h | ⟨raw, rfl⟩
      · exact .inl h
      · right
        simp [replaceUriEscapes_escape]
  case ginc =>
    obtain ⟨C, S, ⟨⟨-, hC⟩, -⟩, -, rfl, rfl⟩ := GINC.new_iff.1 hy
    constructor
    · rintro ⟨C', raw, h, e⟩
      exact ⟨C', raw, h, e.trans (by simp [uri2, uriPrefix, Cls.name])⟩
    · rintro ⟨C', raw, h, e⟩
      exact ⟨C', raw, h, e.trans (by simp [uri2, uriPrefix, Cls.name])⟩
  case adi =>
    obtain ⟨C, D, S, ⟨hC, hD, -⟩, -, rfl, rfl⟩ := ADI.new_iff.1 hy
    constructor
    · rintro ⟨raw, h, e, hg⟩
      exact ⟨C, raw, S, cage_no_dot hC, h, by rw [← e]; rfl, hg⟩
    · rintro ⟨C', raw, S', h1, h, e, hg⟩
      exact ⟨raw, h, (uri3_eq (p := uriPrefix .adi) (cage_no_dot hC) (adiPart_no_dot hD) h1 (escape39_no_dot h) e).2.1, hg⟩
  all_goals first
    | exact Iff.rfl
    | (have hx := (Cls.new_facts hu).2.1
       show Ascii _ ↔ Ascii _
       rw [← hx]; exact Iff.rfl)

end Epc.Src
