/-
Bounds on the backtracking of the patterns of /repo/epcpy/utils/regex.py (Model/Regexes).
-/
import Verif.Lemmas.Backtrack
import Verif.Model.Adi

namespace Epc.Rx
open Re

theorem ways_cls_cons {p : Char → Bool} {c : Char} (h : p c = false) (s : Str) : ways (.cls p) (c :: s) = [] := by
  simp [ways, h]

/-! ### Items -/

theorem item_gs3a3 : Item 5 gs3a3Char := by
  refine ⟨⟨⟨trivial, trivial⟩, trivial⟩, rfl, fun s => ?_⟩
  rcases s with _ | ⟨c, _ | ⟨d, s⟩⟩
  · simp [gs3a3Char, ways, work, Re.chr]
  · by_cases h : c = '%'
    · subst h
      simp [gs3a3Char, ways, work, Re.chr, show isGs3a3Plain '%' = false by decide]
    · cases hp : isGs3a3Plain c <;> simp [gs3a3Char, ways, work, Re.chr, h, hp]
  · by_cases h : c = '%'
    · subst h
      cases hd : isHexA d <;> simp [gs3a3Char, ways, work, Re.chr, show isGs3a3Plain '%' = false by decide, hd]
    · cases hp : isGs3a3Plain c <;> simp [gs3a3Char, ways, work, Re.chr, h, hp]

theorem item_adi : Item 7 adiChar := by
  refine ⟨by simp [adiChar, Proper, Re.lit, Re.chr], rfl, fun s => ?_⟩
  have hp : isCprefPlain '%' = false := by decide
  rcases s with _ | ⟨c, s⟩
  · simp [adiChar, ways, work, Re.chr, Re.lit]
  · by_cases h : c = '%'
    · subst h
      rcases s with _ | ⟨d, s⟩
      · simp [adiChar, ways, work, Re.chr, Re.lit, hp]
      · by_cases h2 : d = '2'
        · rcases s with _ | ⟨e, s⟩
          · simp [adiChar, ways, work, Re.chr, Re.lit, hp, h2]
          · by_cases h3 : e = 'F' <;> simp [adiChar, ways, work, Re.chr, Re.lit, hp, h2, h3]
        · simp [adiChar, ways, work, Re.chr, Re.lit, hp, h2]
    · cases hc : isCprefPlain c <;> simp [adiChar, ways, work, Re.chr, Re.lit, h, hc]

theorem item_cpref : Item 13 (alts [.cls isCprefPlain, lit (py "%2F"), lit (py "%23")]) := by
  refine ⟨by simp [Re.alts, Proper, Re.lit, Re.chr], rfl, fun s => ?_⟩
  have hp : isCprefPlain '%' = false := by decide
  rcases s with _ | ⟨c, s⟩
  · simp [Re.alts, ways, work, Re.chr, Re.lit]
  · by_cases h : c = '%'
    · subst h
      rcases s with _ | ⟨d, s⟩
      · simp [Re.alts, ways, work, Re.chr, Re.lit, hp]
      · by_cases h2 : d = '2'
        · rcases s with _ | ⟨e, s⟩
          · simp [Re.alts, ways, work, Re.chr, Re.lit, hp, h2]
          · by_cases h3 : e = 'F'
            · simp [Re.alts, ways, work, Re.chr, Re.lit, hp, h2, h3]
            · by_cases h4 : e = '3' <;> simp [Re.alts, ways, work, Re.chr, Re.lit, hp, h2, h3, h4]
        · simp [Re.alts, ways, work, Re.chr, Re.lit, hp, h2]
    · cases hc : isCprefPlain c <;> simp [Re.alts, ways, work, Re.chr, Re.lit, h, hc]

/-! ### Components followed by a dot -/

theorem dec_dot (s : Str) : ways (.cls isDecimal) ('.' :: s) = [] := ways_cls_cons (by decide) s

theorem gs3a3_end : Bd 1 1 12 gs3a3 := item_gs3a3.plus
theorem padded_end : Bd 1 1 4 padded := (Item.cls isDecimal).plus
theorem poe_end : Bd 1 1 2 paddedOrEmpty := (Item.cls isDecimal).star
theorem padded_dot : Before '.' 1 1 4 padded := (Item.cls isDecimal).plusBefore '.' dec_dot
theorem poe_dot : Before '.' 1 1 2 paddedOrEmpty := (Item.cls isDecimal).starBefore '.' dec_dot

theorem numeric_dot : Before '.' 2 2 8 numeric :=
  Before.alt ((Bd.lit (py "0")).before '.') ((Bd.cls _).seqBefore ((Item.cls isDecimal).starBefore '.' dec_dot))

theorem numeric_end : Bd 1 2 8 numeric :=
  Bd.alt (Bd.lit (py "0")).up ((Bd.cls _).seq (Item.cls isDecimal).star)

theorem cpref_dot : Before '.' 1 1 28 cpref :=
  item_cpref.plusBefore '.' (fun s => by
    simp [Re.alts, ways, Re.lit, Re.chr, show isCprefPlain '.' = false by decide])

theorem adi_dot : Before '.' 1 1 8 (.star adiChar) :=
  item_adi.starBefore '.' (fun s => by
    simp [adiChar, ways, Re.lit, Re.chr, show isCprefPlain '.' = false by decide])

theorem adi_end : Bd 1 2 42 (.seq (opt (lit (py "%23"))) (plus adiChar)) :=
  (Bd.alt Bd.eps (Bd.lit (py "%23"))).seq item_adi.plus

theorem cage_dot : Before '.' 2 2 17 cage := (Bd.range isCage 5 6).before '.'
theorem ast_dot : Before '.' 1 1 1 ast := (Bd.chr '*').before '.'
theorem ast_end : Bd 1 1 1 ast := (Bd.chr '*').up

theorem dotted2_bd {w v d w2 c2 : Nat} {a b : Re} (ha : Before '.' w v d a) (hb : Bd 1 w2 c2 b) :
    Bd 1 (w * w2) (1 + d + v * 2 + w * c2) (dotted2 a b) := ha.seq hb

theorem dotted3_bd {w v d w' v' d' w2 c2 : Nat} {a b c : Re} (ha : Before '.' w v d a) (hb : Before '.' w' v' d' b)
    (hc : Bd 1 w2 c2 c) :
    Bd 1 (w * (w' * w2)) (1 + d + v * 2 + w * (1 + d' + v' * 2 + w' * c2)) (dotted3 a b c) := ha.seq (hb.seq hc)

theorem uri_bd {w c : Nat} {b : Re} (u : Str) (h : Bd 1 w c b) :
    Bd 1 (1 * w) (1 + (2 * u.length + 1) + 1 * c) (.seq (lit u) b) := (Bd.lit u).seq h

/-! ### Bodies -/

theorem sgtin_body : Bd 1 1 26 sgtinBody := dotted3_bd padded_dot padded_dot gs3a3_end
theorem sscc_body : Bd 1 1 11 ssccBody := dotted2_bd padded_dot padded_end
theorem sgln_body : Bd 1 1 24 sglnBody := dotted3_bd padded_dot poe_dot gs3a3_end
theorem grai_body : Bd 1 1 24 graiBody := dotted3_bd padded_dot poe_dot gs3a3_end
theorem giai_body : Bd 1 1 19 giaiBody := dotted2_bd padded_dot gs3a3_end
theorem gsrn_body : Bd 1 1 11 gsrnBody := dotted2_bd padded_dot padded_end
theorem gsrnp_body : Bd 1 1 11 gsrnpBody := dotted2_bd padded_dot padded_end
theorem gdti_body : Bd 1 1 24 gdtiBody := dotted3_bd padded_dot poe_dot gs3a3_end
theorem cpi_body : Bd 1 2 46 cpiBody := dotted3_bd padded_dot cpref_dot numeric_end
theorem sgcn_body : Bd 1 1 16 sgcnBody := dotted3_bd padded_dot poe_dot padded_end
theorem ginc_body : Bd 1 1 19 gincBody := dotted2_bd padded_dot gs3a3_end
theorem gsin_body : Bd 1 1 11 gsinBody := dotted2_bd padded_dot padded_end
theorem itip_body : Bd 1 1 40 itipBody := padded_dot.seq (padded_dot.seq (padded_dot.seq (padded_dot.seq gs3a3_end)))
theorem upui_body : Bd 1 1 24 upuiBody := dotted3_bd padded_dot poe_dot gs3a3_end
theorem pgln_body : Bd 1 1 9 pglnBody := dotted2_bd padded_dot poe_end
theorem gid_body : Bd 1 8 71 gidBody := dotted3_bd numeric_dot numeric_dot numeric_end
theorem usdod_body : Bd 1 4 38 usdodBody := dotted2_bd cage_dot numeric_end
theorem adi_body : Bd 1 4 128 adiBody := dotted3_bd cage_dot adi_dot adi_end
theorem bic_fin : Fin 1 25 bicBody := (Fin.rep isBicOwner 3).seq ((Fin.cls _).seq (Fin.rep isDigitA 7))
theorem imovn_fin : Fin 1 15 imovnBody := Fin.rep isDigitA 7
theorem bic_body : Bd 1 1 25 bicBody := bic_fin.bd.up
theorem imovn_body : Bd 1 1 15 imovnBody := imovn_fin.bd.up

/-! ### Identities -/

theorem sgtin_uri : Bd 1 1 62 sgtinUri := uri_bd (py "urn:epc:id:sgtin:") sgtin_body
theorem sscc_uri : Bd 1 1 45 ssccUri := uri_bd (py "urn:epc:id:sscc:") sscc_body
theorem sgln_uri : Bd 1 1 58 sglnUri := uri_bd (py "urn:epc:id:sgln:") sgln_body
theorem grai_uri : Bd 1 1 58 graiUri := uri_bd (py "urn:epc:id:grai:") grai_body
theorem giai_uri : Bd 1 1 53 giaiUri := uri_bd (py "urn:epc:id:giai:") giai_body
theorem gsrn_uri : Bd 1 1 45 gsrnUri := uri_bd (py "urn:epc:id:gsrn:") gsrn_body
theorem gsrnp_uri : Bd 1 1 47 gsrnpUri := uri_bd (py "urn:epc:id:gsrnp:") gsrn_body
theorem gdti_uri : Bd 1 1 58 gdtiUri := uri_bd (py "urn:epc:id:gdti:") gdti_body
theorem cpi_uri : Bd 1 2 78 cpiUri := uri_bd (py "urn:epc:id:cpi:") cpi_body
theorem sgcn_uri : Bd 1 1 50 sgcnUri := uri_bd (py "urn:epc:id:sgcn:") sgcn_body
theorem ginc_uri : Bd 1 1 53 gincUri := uri_bd (py "urn:epc:id:ginc:") ginc_body
theorem gsin_uri : Bd 1 1 45 gsinUri := uri_bd (py "urn:epc:id:gsin:") gsin_body
theorem itip_uri : Bd 1 1 74 itipUri := uri_bd (py "urn:epc:id:itip:") itip_body
theorem upui_uri : Bd 1 1 58 upuiUri := uri_bd (py "urn:epc:id:upui:") upui_body
theorem pgln_uri : Bd 1 1 43 pglnUri := uri_bd (py "urn:epc:id:pgln:") pgln_body
theorem gid_uri : Bd 1 8 103 gidUri := uri_bd (py "urn:epc:id:gid:") gid_body
theorem usdod_uri : Bd 1 4 74 usdodUri := uri_bd (py "urn:epc:id:usdod:") usdod_body
theorem adi_uri : Bd 1 4 160 adiUri := uri_bd (py "urn:epc:id:adi:") adi_body
theorem bic_uri : Bd 1 1 57 bicUri := uri_bd (py "urn:epc:id:bic:") bic_body
theorem imovn_uri : Bd 1 1 51 imovnUri := uri_bd (py "urn:epc:id:imovn:") imovn_body
theorem lgtin_uri : Bd 1 1 68 lgtinClass :=
  uri_bd (py "urn:epc:class:lgtin:") (dotted3_bd padded_dot padded_dot gs3a3_end)

theorem epc_uri : Bd 1 35 1360 epcUri :=
  (sgtin_uri).alt ((sscc_uri).alt ((sgln_uri).alt ((grai_uri).alt ((giai_uri).alt ((gsrn_uri).alt
  ((gsrnp_uri).alt ((gdti_uri).alt ((cpi_uri).alt ((sgcn_uri).alt ((ginc_uri).alt ((gsin_uri).alt
  ((itip_uri).alt ((upui_uri).alt ((pgln_uri).alt ((gid_uri).alt ((usdod_uri).alt ((adi_uri).alt ((bic_uri).alt
  (imovn_uri.alt (lgtin_uri))))))))))))))))))))

/-! ### Patterns -/

theorem sgtin_pat : Bd 1 4 79 (.seq (lit (py "sgtin:")) (idpat3 padded padded gs3a3)) :=
  uri_bd (py "sgtin:") ((dotted3_bd padded_dot padded_dot gs3a3_end).alt ((dotted3_bd padded_dot padded_dot ast_end).alt ((dotted3_bd
  padded_dot ast_dot ast_end).alt (dotted3_bd ast_dot ast_dot ast_end))))

theorem sscc_pat : Bd 1 3 38 (.seq (lit (py "sscc:")) (idpat2 padded padded)) :=
  uri_bd (py "sscc:") ((dotted2_bd padded_dot padded_end).alt ((dotted2_bd padded_dot ast_end).alt (dotted2_bd ast_dot ast_end)))

theorem sgln_pat : Bd 1 4 73 (.seq (lit (py "sgln:")) (idpat3 padded paddedOrEmpty gs3a3)) :=
  uri_bd (py "sgln:") ((dotted3_bd padded_dot poe_dot gs3a3_end).alt ((dotted3_bd padded_dot poe_dot ast_end).alt ((dotted3_bd
  padded_dot ast_dot ast_end).alt (dotted3_bd ast_dot ast_dot ast_end))))

theorem grai_pat : Bd 1 4 73 (.seq (lit (py "grai:")) (idpat3 padded paddedOrEmpty gs3a3)) :=
  uri_bd (py "grai:") ((dotted3_bd padded_dot poe_dot gs3a3_end).alt ((dotted3_bd padded_dot poe_dot ast_end).alt ((dotted3_bd
  padded_dot ast_dot ast_end).alt (dotted3_bd ast_dot ast_dot ast_end))))

theorem giai_pat : Bd 1 3 46 (.seq (lit (py "giai:")) (idpat2 padded gs3a3)) :=
  uri_bd (py "giai:") ((dotted2_bd padded_dot gs3a3_end).alt ((dotted2_bd padded_dot ast_end).alt (dotted2_bd ast_dot ast_end)))

theorem gsrn_pat : Bd 1 3 38 (.seq (lit (py "gsrn:")) (idpat2 padded padded)) :=
  uri_bd (py "gsrn:") ((dotted2_bd padded_dot padded_end).alt ((dotted2_bd padded_dot ast_end).alt (dotted2_bd ast_dot ast_end)))

theorem gsrnp_pat : Bd 1 3 40 (.seq (lit (py "gsrnp:")) (idpat2 padded padded)) :=
  uri_bd (py "gsrnp:") ((dotted2_bd padded_dot padded_end).alt ((dotted2_bd padded_dot ast_end).alt (dotted2_bd ast_dot ast_end)))

theorem gdti_pat : Bd 1 4 73 (.seq (lit (py "gdti:")) (idpat3 padded paddedOrEmpty gs3a3)) :=
  uri_bd (py "gdti:") ((dotted3_bd padded_dot poe_dot gs3a3_end).alt ((dotted3_bd padded_dot poe_dot ast_end).alt ((dotted3_bd
  padded_dot ast_dot ast_end).alt (dotted3_bd ast_dot ast_dot ast_end))))

theorem cpi_pat : Bd 1 5 119 (.seq (lit (py "cpi:")) (idpat3 padded cpref numeric)) :=
  uri_bd (py "cpi:") ((dotted3_bd padded_dot cpref_dot numeric_end).alt ((dotted3_bd padded_dot cpref_dot ast_end).alt ((dotted3_bd
  padded_dot ast_dot ast_end).alt (dotted3_bd ast_dot ast_dot ast_end))))

theorem sgcn_pat : Bd 1 4 65 (.seq (lit (py "sgcn:")) (idpat3 padded paddedOrEmpty padded)) :=
  uri_bd (py "sgcn:") ((dotted3_bd padded_dot poe_dot padded_end).alt ((dotted3_bd padded_dot poe_dot ast_end).alt ((dotted3_bd
  padded_dot ast_dot ast_end).alt (dotted3_bd ast_dot ast_dot ast_end))))

theorem ginc_pat : Bd 1 3 46 (.seq (lit (py "ginc:")) (idpat2 padded gs3a3)) :=
  uri_bd (py "ginc:") ((dotted2_bd padded_dot gs3a3_end).alt ((dotted2_bd padded_dot ast_end).alt (dotted2_bd ast_dot ast_end)))

theorem gsin_pat : Bd 1 3 38 (.seq (lit (py "gsin:")) (idpat2 padded padded)) :=
  uri_bd (py "gsin:") ((dotted2_bd padded_dot padded_end).alt ((dotted2_bd padded_dot ast_end).alt (dotted2_bd ast_dot ast_end)))

theorem itip_pat : Bd 1 5 143 (.seq (lit (py "itip:")) (alts
      [seqs [padded, dot, padded, dot, padded, dot, padded, dot, gs3a3],
       seqs [padded, dot, padded, dot, padded, dot, padded, dot, ast],
       seqs [padded, dot, padded, dot, ast, dot, ast, dot, ast],
       seqs [padded, dot, ast, dot, ast, dot, ast, dot, ast],
       seqs [ast, dot, ast, ast, dot, ast, dot, ast]])) :=
  uri_bd (py "itip:") ((padded_dot.seq (padded_dot.seq (padded_dot.seq (padded_dot.seq gs3a3_end)))).alt ((padded_dot.seq
  (padded_dot.seq (padded_dot.seq (padded_dot.seq ast_end)))).alt ((padded_dot.seq (padded_dot.seq (ast_dot.seq
  (ast_dot.seq ast_end)))).alt ((padded_dot.seq (ast_dot.seq (ast_dot.seq (ast_dot.seq ast_end)))).alt
  (ast_dot.seq ((Bd.chr '*').seq (ast_dot.seq (ast_dot.seq ast_end))))))))

theorem upui_pat : Bd 1 4 77 (.seq (lit (py "upui:")) (idpat3 padded padded gs3a3)) :=
  uri_bd (py "upui:") ((dotted3_bd padded_dot padded_dot gs3a3_end).alt ((dotted3_bd padded_dot padded_dot ast_end).alt ((dotted3_bd
  padded_dot ast_dot ast_end).alt (dotted3_bd ast_dot ast_dot ast_end))))

theorem pgln_pat : Bd 1 3 36 (.seq (lit (py "pgln:")) (idpat2 padded paddedOrEmpty)) :=
  uri_bd (py "pgln:") ((dotted2_bd padded_dot poe_end).alt ((dotted2_bd padded_dot ast_end).alt (dotted2_bd ast_dot ast_end)))

theorem gid_pat : Bd 1 15 159 (.seq (lit (py "gid:")) (idpat3 numeric numeric numeric)) :=
  uri_bd (py "gid:") ((dotted3_bd numeric_dot numeric_dot numeric_end).alt ((dotted3_bd numeric_dot numeric_dot ast_end).alt
  ((dotted3_bd numeric_dot ast_dot ast_end).alt (dotted3_bd ast_dot ast_dot ast_end))))

theorem usdod_pat : Bd 1 7 83 (.seq (lit (py "usdod:")) (idpat2 cage numeric)) :=
  uri_bd (py "usdod:") ((dotted2_bd cage_dot numeric_end).alt ((dotted2_bd cage_dot ast_end).alt (dotted2_bd ast_dot ast_end)))

theorem adi_pat : Bd 1 9 228 (.seq (lit (py "adi:")) (idpat3 cage (.star adiChar) (.seq (opt (lit (py "%23"))) (plus adiChar)))) :=
  uri_bd (py "adi:") ((dotted3_bd cage_dot adi_dot adi_end).alt ((dotted3_bd cage_dot adi_dot ast_end).alt ((dotted3_bd cage_dot
  ast_dot ast_end).alt (dotted3_bd ast_dot ast_dot ast_end))))

theorem idpat_uri : Bd 1 86 1501 idpatUri :=
  uri_bd (py "urn:epc:idpat:") ((sgtin_pat).alt ((sscc_pat).alt ((sgln_pat).alt ((grai_pat).alt ((giai_pat).alt ((gsrn_pat).alt
  ((gsrnp_pat).alt ((gdti_pat).alt ((cpi_pat).alt ((sgcn_pat).alt ((ginc_pat).alt ((gsin_pat).alt
  ((itip_pat).alt ((upui_pat).alt ((pgln_pat).alt ((gid_pat).alt (usdod_pat.alt (adi_pat))))))))))))))))))

/-! ### Tag URIs -/

theorem sgtin_tag : Bd 1 4 172 (tagAlt (alts [lit (py "sgtin-96"), lit (py "sgtin-198")]) sgtinBody) :=
  (((Bd.lit (py "sgtin-96"))).alt ((Bd.lit (py "sgtin-198")))).seq ((Bd.chr ':').seq (numeric_dot.seq sgtin_body))

theorem sscc_tag : Bd 1 2 53 (tagAlt (lit (py "sscc-96")) ssccBody) :=
  ((Bd.lit (py "sscc-96"))).seq ((Bd.chr ':').seq (numeric_dot.seq sscc_body))

theorem sgln_tag : Bd 1 4 160 (tagAlt (alts [lit (py "sgln-96"), lit (py "sgln-195")]) sglnBody) :=
  (((Bd.lit (py "sgln-96"))).alt ((Bd.lit (py "sgln-195")))).seq ((Bd.chr ':').seq (numeric_dot.seq sgln_body))

theorem grai_tag : Bd 1 4 160 (tagAlt (alts [lit (py "grai-96"), lit (py "grai-170")]) graiBody) :=
  (((Bd.lit (py "grai-96"))).alt ((Bd.lit (py "grai-170")))).seq ((Bd.chr ':').seq (numeric_dot.seq grai_body))

theorem giai_tag : Bd 1 4 140 (tagAlt (alts [lit (py "giai-96"), lit (py "giai-202")]) giaiBody) :=
  (((Bd.lit (py "giai-96"))).alt ((Bd.lit (py "giai-202")))).seq ((Bd.chr ':').seq (numeric_dot.seq giai_body))

theorem gsrn_tag : Bd 1 2 53 (tagAlt (lit (py "gsrn-96")) gsrnBody) :=
  ((Bd.lit (py "gsrn-96"))).seq ((Bd.chr ':').seq (numeric_dot.seq gsrn_body))

theorem gsrnp_tag : Bd 1 2 55 (tagAlt (lit (py "gsrnp-96")) gsrnpBody) :=
  ((Bd.lit (py "gsrnp-96"))).seq ((Bd.chr ':').seq (numeric_dot.seq gsrnp_body))

theorem gdti_tag : Bd 1 4 160 (tagAlt (alts [lit (py "gdti-96"), lit (py "gdti-174")]) gdtiBody) :=
  (((Bd.lit (py "gdti-96"))).alt ((Bd.lit (py "gdti-174")))).seq ((Bd.chr ':').seq (numeric_dot.seq gdti_body))

theorem cpi_tag : Bd 1 8 244 (tagAlt (alts [lit (py "cpi-96"), lit (py "cpi-var")]) cpiBody) :=
  (((Bd.lit (py "cpi-96"))).alt ((Bd.lit (py "cpi-var")))).seq ((Bd.chr ':').seq (numeric_dot.seq cpi_body))

theorem sgcn_tag : Bd 1 2 63 (tagAlt (lit (py "sgcn-96")) sgcnBody) :=
  ((Bd.lit (py "sgcn-96"))).seq ((Bd.chr ':').seq (numeric_dot.seq sgcn_body))

theorem itip_tag : Bd 1 4 226 (tagAlt (alts [lit (py "itip-110"), lit (py "itip-212")]) itipBody) :=
  (((Bd.lit (py "itip-110"))).alt ((Bd.lit (py "itip-212")))).seq ((Bd.chr ':').seq (numeric_dot.seq itip_body))

theorem gid_tag : Bd 1 8 87 (seqs [lit (py "gid-96"), Re.chr ':', gidBody]) :=
  ((Bd.lit (py "gid-96"))).seq ((Bd.chr ':').seq (gid_body))

theorem usdod_tag : Bd 1 8 109 (tagAlt (lit (py "usdod-96")) usdodBody) :=
  ((Bd.lit (py "usdod-96"))).seq ((Bd.chr ':').seq (numeric_dot.seq usdod_body))

theorem adi_tag : Bd 1 8 287 (tagAlt (lit (py "adi-var")) adiBody) :=
  ((Bd.lit (py "adi-var"))).seq ((Bd.chr ':').seq (numeric_dot.seq adi_body))

theorem tag_uri : Bd 1 64 2008 tagUri :=
  uri_bd (py "urn:epc:tag:") ((sgtin_tag).alt ((sscc_tag).alt ((sgln_tag).alt ((grai_tag).alt ((giai_tag).alt ((gsrn_tag).alt
  ((gsrnp_tag).alt ((gdti_tag).alt ((cpi_tag).alt ((sgcn_tag).alt ((itip_tag).alt ((gid_tag).alt (usdod_tag.alt
  (adi_tag))))))))))))))

/-! ### Element strings -/

theorem sgtin_elem : Fin 20 131 sgtinElem :=
  (Fin.lit (py "(01)")).seq ((Fin.rep isDecimal 14).seq ((Fin.lit (py "(21)")).seq ((Fin.range isGs3a3Any 1 20))))

theorem sscc_elem : Fin 1 47 ssccElem :=
  (Fin.lit (py "(00)")).seq ((Fin.rep isDecimal 18))

theorem sgln_elem : Fin 20 133 sglnElem :=
  (Fin.lit (py "(414)")).seq ((Fin.rep isDecimal 13).seq ((Fin.lit (py "(254)")).seq ((Fin.range isGs3a3Any 1 20))))

theorem grai_elem : Fin 16 109 graiElem :=
  (Fin.lit (py "(8003)0")).seq ((Fin.rep isDecimal 13).seq ((Fin.range isGs3a3Any 1 16)))

theorem giai_elem : Fin 168 733 giaiElem :=
  (Fin.lit (py "(8004)")).seq ((Fin.range isDecimal 6 12).seq ((Fin.range isGs3a3Any 1 24)))

theorem gsrn_elem : Fin 1 51 gsrnElem :=
  (Fin.lit (py "(8018)")).seq ((Fin.rep isDecimal 18))

theorem gsrnp_elem : Fin 1 51 gsrnpElem :=
  (Fin.lit (py "(8017)")).seq ((Fin.rep isDecimal 18))

theorem gdti_elem : Fin 17 109 gdtiElem :=
  (Fin.lit (py "(253)")).seq ((Fin.rep isDecimal 13).seq ((Fin.range isGs3a3Any 1 17)))

theorem cpi_elem : Fin 2100 11779 cpiElem :=
  (Fin.lit (py "(8010)")).seq ((Fin.range isDecimal 6 12).seq ((Fin.range isCpiElem 0 24).seq ((Fin.lit (py
  "(8011)")).seq ((Fin.range isDecimal 1 12)))))

theorem sgcn_elem : Fin 12 89 sgcnElem :=
  (Fin.lit (py "(255)")).seq ((Fin.rep isDecimal 13).seq ((Fin.range isGs3a3Any 1 12)))

theorem ginc_elem : Fin 168 731 gincElem :=
  (Fin.lit (py "(401)")).seq ((Fin.range isDecimal 6 12).seq ((Fin.range isGs3a3Any 1 24)))

theorem gsin_elem : Fin 1 47 gsinElem :=
  (Fin.lit (py "(402)")).seq ((Fin.rep isDecimal 17))

theorem itip_elem : Fin 20 143 itipElem :=
  (Fin.lit (py "(8006)")).seq ((Fin.rep isDecimal 18).seq ((Fin.lit (py "(21)")).seq ((Fin.range isGs3a3Any 1 20))))

theorem upui_elem : Fin 28 165 upuiElem :=
  (Fin.lit (py "(01)")).seq ((Fin.rep isDecimal 14).seq ((Fin.lit (py "(235)")).seq ((Fin.range isGs3a3Any 1 28))))

theorem pgln_elem : Fin 1 39 pglnElem :=
  (Fin.lit (py "(417)")).seq ((Fin.rep isDecimal 13))

theorem lgtin_elem : Fin 20 131 lgtinElem :=
  (Fin.lit (py "(01)")).seq ((Fin.rep isDecimal 14).seq ((Fin.lit (py "(10)")).seq ((Fin.range isGs3a3Any 1 20))))

theorem gs1_elem : Fin 2594 14503 gs1Elem :=
  (sgtin_elem).alt ((sscc_elem).alt ((sgln_elem).alt ((grai_elem).alt ((giai_elem).alt ((gsrn_elem).alt
  ((gsrnp_elem).alt ((gdti_elem).alt ((cpi_elem).alt ((sgcn_elem).alt ((ginc_elem).alt ((gsin_elem).alt
  ((itip_elem).alt ((upui_elem).alt (pgln_elem.alt (lgtin_elem)))))))))))))))

/-! ### Others -/

theorem verify_end : Bd 1 1 4 verifyGs3a3Re := (Item.cls isGs3a3Any).plus

theorem item_zeros : Item 13 (Re.rep (Re.chr '0') 6) :=
  ⟨(Fin.rep _ 6).1, rfl, (Fin.rep _ 6).2⟩

end Epc.Rx
