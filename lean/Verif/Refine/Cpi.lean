/-
/repo/epcpy/epc_schemes/cpi.py
-/
import Verif.Refine.Base
import Verif.Model.Cpi
set_option linter.unusedSimpArgs false

namespace Epc.Src
open Epc.Spec

theorem strsOf_two (a b : Str) : strsOf [.str a, .str b] = .ok [a, b] := rfl
theorem flatten_two (a b : Str) : [a, b].flatten = a ++ b := by simp

theorem sem_replace_cpi_escapes (n : Nat) (s : Str) :
    (level (n + 2)).app (.func cpi.replace_cpi_escapes) [.str s] [] = .ok (.str (Epc.CPI.replaceCpiEscapes s)) := rfl
theorem sem_revert_cpi_escapes (n : Nat) (s : Str) :
    (level (n + 2)).app (.func cpi.revert_cpi_escapes) [.str s] [] = .ok (.str (Epc.CPI.revertCpiEscapes s)) := rfl

theorem sem_CPI (n : Nat) (u : Str) : (level (n + 10)).app (.cls .CPI) [.str u] [] = (lift (Epc.CPI.new u)).map objCPI := by
  rw [app_cls (by rw [mro_CPI, chain_CPI]) rfl (by decide)]
  exe [runInit, strsOf_two, flatten_two, CPI.__init__, Epc.CPI.new, init_ElementTag, objCPI, tagAttrs, cpi.CPI_URI_REGEX]

theorem sem_CPI_gs1_element_string (n : Nat) (x : Epc.CPI) :
    (level (n + 10)).app (.bound CPI.gs1_element_string (objCPI x)) [] [] = (lift x.gs1ElementString).map .str := by
  rw [app_bound]
  exe [CPI.gs1_element_string, sem_replace_cpi_escapes, Epc.CPI.gs1ElementString, objCPI, tagAttrs]

theorem sem_CPI_from_gs1_element_string (n : Nat) (s : Str) (k : Int) :
    (level (n + 11)).app (.bound CPI.from_gs1_element_string (.cls .CPI)) [.str s, .int k] [] =
      (lift (Epc.CPI.fromGs1ElementString s k)).map objCPI := by
  rw [app_bound]
  exe [CPI.from_gs1_element_string, sem_revert_cpi_escapes, Epc.CPI.fromGs1ElementString, sem_CPI]

@[src high] theorem tableP96_CPI (n : Nat) : (level (n + 3)).const .cpi [] cpi.PARTITION_TABLE_P_96 = .ok (tableP Epc.CPI.table96) := rfl

@[src high] theorem tableL96_CPI (n : Nat) : (level (n + 3)).const .cpi [] cpi.PARTITION_TABLE_L_96 = .ok (tableL Epc.CPI.table96) := rfl

@[src high] theorem tablePVAR_CPI (n : Nat) : (level (n + 3)).const .cpi [] cpi.PARTITION_TABLE_P_VAR = .ok (tableP Epc.CPI.tableVar) := rfl

@[src high] theorem tableLVAR_CPI (n : Nat) : (level (n + 3)).const .cpi [] cpi.PARTITION_TABLE_L_VAR = .ok (tableL Epc.CPI.tableVar) := rfl

theorem cpi_bad96 (x : Epc.CPI) : lift (x.badSerial .cpi96) =
    lift (pyInt 10 x.serial) >>= fun i => if decide (i ≥ ((2 ^ 31 : Nat) : Int)) = true then .ok true
      else if (!isNumeric x.cpRef) = true then .ok true
      else if decide ((x.cpRef.length : Int) > ((1 : Nat) : Int)) = true then
        lift (getIdx x.cpRef 0) >>= fun c => if ([c] == ['0']) = true then .ok true
          else .ok (decide ((x.cpRef.length : Int) > ((15 : Nat) : Int) - (x.companyPref.length : Int)))
      else .ok (decide ((x.cpRef.length : Int) > ((15 : Nat) : Int) - (x.companyPref.length : Int))) := by
  simp only [← zero_lazy]
  rw [Epc.CPI.badSerial, lift_bind]
  refine same_step fun i _ => ?_
  show Except.ok _ = _
  cases decide (i ≥ ((2 ^ 31 : Nat) : Int)) <;> cases (!isNumeric x.cpRef) <;>
    cases (decide (x.cpRef.length > 1) && x.cpRef.head? == some '0') <;> simp

theorem cpi_badVar (x : Epc.CPI) : x.badSerial .cpiVar = .ok (decide (x.serial.length > 12)) := rfl

theorem sem_CPI_tag_uri (n : Nat) (x : Epc.CPI) (cs : Epc.CPI.Coding) (f : Fin 8) (o : Cl) (e m : Nm) (nm : Str) :
    (level (n + 10)).app (.bound CPI.tag_uri (objCPI x)) [] [(.binary_coding_scheme, codCPI cs), (.filter_value, .member o e m nm (filterStr f))] =
      (lift (x.tagUri cs f)).map .str := by
  rw [app_bound]
  cases cs
  all_goals exe [CPI.tag_uri, Epc.CPI.tagUri, objCPI, tagAttrs, codCPI, Epc.CPI.Coding.value, Epc.CPI.Coding.header, del, cpi_bad96, cpi_badVar]
  rename_i hn
  rw [Bool.not_eq_true] at hn
  rw [hn, Bool.false_or]

theorem sem_CPI_binary (n : Nat) (x : Epc.CPI) (cs : Epc.CPI.Coding) (f : Fin 8) (o : Cl) (e m : Nm) (nm : Str) :
    (level (n + 10)).app (.bound CPI.binary (objCPI x)) [] [(.binary_coding_scheme, codCPI cs), (.filter_value, .member o e m nm (filterStr f))] =
      (lift (x.binary cs f)).map .str := by
  rw [app_bound]
  cases cs
  all_goals exe [CPI.binary, Epc.CPI.binary, objCPI, tagAttrs, codCPI, Epc.CPI.Coding.value, Epc.CPI.Coding.header, del]

theorem sem_CPI_headers (n : Nat) : (level (n + 4)).app (.bound TagEncodable.header_to_schemes (.cls .CPI)) [] [] =
    .ok (.dict (Epc.CPI.headers.map (fun p => (.str p.1, codCPI p.2)))) := rfl

theorem parse_CPI (n : Nat) (b : Str) :
    (level (n + 2)).app (.func common.parse_header_and_truncate_binary) [.str b, .dict (Epc.CPI.headers.map (fun p => (.str p.1, codCPI p.2)))] [] =
      (lift (parseHeader Epc.CPI.headers Epc.CPI.Coding.value b)).map (fun r => .list [codCPI r.1, .str r.2]) :=
  sem_parse_header n codCPI _ (by intro k; cases k <;> exact ⟨_, _, _, _, rfl⟩) _ b

theorem sem_CPI_from_tag_uri (n : Nat) (t : Str) :
    (level (n + 11)).app (.bound TagEncodable.from_tag_uri (.cls .CPI)) [.str t] [] = (lift (Epc.CPI.fromTagUri t)).map objCPI := by
  rw [from_tag_uri_default, sem_from_tag_uri n .CPI (fun u => sem_CPI n u), Epc.CPI.fromTagUri]

/-- Environments that differ in the variables of the loop only. -/
def SameCpi (e e' : Env) : Prop := ∀ z, z ≠ .g → z ≠ .serial_binary → z ≠ .is_serial → get z e = get z e'

theorem SameCpi.set_g {e e' : Env} (h : SameCpi e e') (v : Val) : SameCpi (set .g v e) e' := fun z h1 h2 h3 => by
  rw [get_set_ne h1, h z h1 h2 h3]
theorem SameCpi.set_serial {e e' : Env} (h : SameCpi e e') (v : Val) : SameCpi (set .serial_binary v e) e' := fun z h1 h2 h3 => by
  rw [get_set_ne h2, h z h1 h2 h3]
theorem SameCpi.set_is {e e' : Env} (h : SameCpi e e') (v : Val) : SameCpi (set .is_serial v e) e' := fun z h1 h2 h3 => by
  rw [get_set_ne h3, h z h1 h2 h3]

theorem loop_cpi (n : Nat) (env₀ : Env) (l : List Str) : ∀ (i : Bool) (r : Str) (env : Env), SameCpi env env₀ →
    get .serial_binary env = some (.str r) → get .is_serial env = some (.bool i) →
      ∃ env', SameCpi env' env₀ ∧ get .serial_binary env' = some (.str (r ++ Epc.CPI.serialLoop i l)) ∧
        forLoop (fun env v => .ok (set .g v env)) (runBody (level n) .cpi [] CPI.from_binary.loop1) (l.map .str) env = .ok (.next env') := by
  induction l with
  | nil => intro i r env hs hr _; exact ⟨env, hs, by simpa [Epc.CPI.serialLoop] using hr, rfl⟩
  | cons g l ih =>
    intro i r env hs hr hi
    rw [List.map_cons, forLoop, m_ok_bind, runBody, CPI.from_binary.loop1, Epc.CPI.serialLoop]
    by_cases hg : g = py "000000"
    · have hg' : (g == py "000000") = true := by simpa using hg
      cases i
      · obtain ⟨env', h1, h2, h3⟩ := ih true r (set .is_serial (.bool true) (set .g (.str g) env)) ((hs.set_g _).set_is _)
          (by rw [get_set_ne (by decide), get_set_ne (by decide), hr]) (get_set_self _ _ _)
        refine ⟨env', h1, by simpa [hg] using h2, ?_⟩
        simp only [src, reduceCtorEq, get_set_self, get_set_ne, hr, hi, ne_eq, not_false_iff, hg']
        exact h3
      · obtain ⟨env', h1, h2, h3⟩ := ih true (r ++ g) (set .is_serial (.bool true) (set .serial_binary (.str (r ++ g)) (set .g (.str g) env)))
          (((hs.set_g _).set_serial _).set_is _) (by rw [get_set_ne (by decide), get_set_self]) (get_set_self _ _ _)
        refine ⟨env', h1, by simpa [hg] using h2, ?_⟩
        simp only [src, reduceCtorEq, get_set_self, get_set_ne, hr, hi, ne_eq, not_false_iff, hg']
        exact h3
    · have hg' : (g == py "000000") = false := by simpa using hg
      cases i
      · obtain ⟨env', h1, h2, h3⟩ := ih false r (set .g (.str g) env) (hs.set_g _)
          (by rw [get_set_ne (by decide), hr]) (by rw [get_set_ne (by decide), hi])
        refine ⟨env', h1, by simpa [hg] using h2, ?_⟩
        simp only [src, reduceCtorEq, get_set_self, get_set_ne, hr, hi, ne_eq, not_false_iff, hg']
        exact h3
      · obtain ⟨env', h1, h2, h3⟩ := ih true (r ++ g) (set .serial_binary (.str (r ++ g)) (set .g (.str g) env))
          ((hs.set_g _).set_serial _) (get_set_self _ _ _) (by rw [get_set_ne (by decide), get_set_ne (by decide), hi])
        refine ⟨env', h1, by simpa [hg] using h2, ?_⟩
        simp only [src, reduceCtorEq, get_set_self, get_set_ne, hr, hi, ne_eq, not_false_iff, hg']
        exact h3

theorem decodeParts96 (b : Str) : Epc.CPI.decodeParts .cpi96 b =
    decodePartitionTable (slice b 11 65) Epc.CPI.table96 .unpadded >>= fun c => .ok (c, b.drop 65) := rfl
theorem decodePartsVar (b : Str) : Epc.CPI.decodeParts .cpiVar b =
    decodePartitionTable (b.drop 11) Epc.CPI.tableVar .sixBit >>= fun c => binaryToInt ((b.drop 11).take 3) >>= fun p =>
      rowByP Epc.CPI.tableVar p >>= fun row =>
        .ok (c, if (Epc.CPI.serialLoop false (splitCap (bitsLen 6) (b.drop (11 + 3 + row.M)))).length > 0
          then (Epc.CPI.serialLoop false (splitCap (bitsLen 6) (b.drop (11 + 3 + row.M)))).take 40 else py "0") := rfl

theorem sem_CPI_from_binary (n : Nat) (b : Str) :
    (level (n + 14)).app (.bound CPI.from_binary (.cls .CPI)) [.str b] [] = (lift (Epc.CPI.fromBinary b)).map objCPI := by
  rw [app_bound]
  run [CPI.from_binary, Epc.CPI.fromBinary, sem_CPI_headers, parse_CPI]
  refine same_step2 fun cs b _ => ?_
  cases cs
  · exe [codCPI, Epc.CPI.Coding.value, Epc.CPI.Coding.header, binIntStr, sem_CPI_from_tag_uri, decodeParts96]
  · exe [codCPI, Epc.CPI.Coding.value, Epc.CPI.Coding.header, binIntStr, sem_CPI_from_tag_uri, decodePartsVar, reSplit_six]
    rename_i c _ p _ row _
    obtain ⟨env, hs, hr, hl⟩ := loop_cpi (n + 13) _ (splitCap (bitsLen 6) (List.drop (11 + 3 + row.M) b)) false []
      [(.cls, .cls .CPI), (.binary_string, .str _), (.binary_coding_scheme, codCPI .cpiVar), (.truncated_binary, .str b),
        (.filter_binary, .str (slice b 8 11)), (.cpi_binary, .str (List.drop 11 b)), (.cpi_string, .str c), (.partition, rowVal row),
        (.possible_serial_binary, .str (List.drop (11 + 3 + row.M) b)), (.serial_binary, .str []), (.is_serial, .bool false)]
      (fun z _ _ _ => rfl) rfl rfl
    rw [List.nil_append] at hr
    generalize Epc.CPI.serialLoop false (splitCap (bitsLen 6) (List.drop (11 + 3 + row.M) b)) = t at hr ⊢
    rw [codCPI] at hl hs
    rw [hl]
    have hs' : ∀ z, z ≠ .g → z ≠ .serial_binary → z ≠ .is_serial → get z env = get z [(.cls, .cls .CPI), (.binary_string, .str _), (.binary_coding_scheme, codCPI .cpiVar), (.truncated_binary, .str b),
        (.filter_binary, .str (slice b 8 11)), (.cpi_binary, .str (List.drop 11 b)), (.cpi_string, .str c), (.partition, rowVal row),
        (.possible_serial_binary, .str (List.drop (11 + 3 + row.M) b)), (.serial_binary, .str []), (.is_serial, .bool false)] := hs
    by_cases h : t.length > 0
    · exe [hr, hs', ne_eq, not_false_iff, get_set_self, get_set_ne, gt_nat, h, decide_true, codCPI, Epc.CPI.Coding.value, binIntStr, sem_CPI_from_tag_uri]
    · exe [hr, hs', ne_eq, not_false_iff, get_set_self, get_set_ne, gt_nat, h, decide_false, codCPI, Epc.CPI.Coding.value, binIntStr, sem_CPI_from_tag_uri]

theorem sem_CPI_hex (n : Nat) (x : Epc.CPI) (cs : Epc.CPI.Coding) (f : Fin 8) (o : Cl) (e m : Nm) (nm : Str) :
    (level (n + 11)).app (.bound TagEncodable.hex (objCPI x)) [] [(.binary_coding_scheme, codCPI cs), (.filter_value, .member o e m nm (filterStr f))] =
      (lift (x.hex cs f)).map .str := sem_hex n (fun _ => rfl) rfl (sem_CPI_binary n x cs f o e m nm)

theorem sem_CPI_base64 (n : Nat) (x : Epc.CPI) (cs : Epc.CPI.Coding) (f : Fin 8) (o : Cl) (e m : Nm) (nm : Str) :
    (level (n + 12)).app (.bound TagEncodable.base64 (objCPI x)) [] [(.binary_coding_scheme, codCPI cs), (.filter_value, .member o e m nm (filterStr f))] =
      (lift (x.base64 cs f)).map .str := sem_base64 n (fun _ => rfl) rfl (sem_CPI_hex n x cs f o e m nm)

theorem sem_CPI_from_hex (n : Nat) (s : Str) :
    (level (n + 15)).app (.bound TagEncodable.from_hex (.cls .CPI)) [.str s] [] = (lift (Epc.CPI.fromHex s)).map objCPI :=
  sem_from_hex n (fun _ => rfl) (sem_CPI_from_binary n) s

theorem sem_CPI_from_base64 (n : Nat) (s : Str) :
    (level (n + 16)).app (.bound TagEncodable.from_base64 (.cls .CPI)) [.str s] [] = (lift (Epc.CPI.fromBase64 s)).map objCPI :=
  sem_from_base64 n (fun _ => rfl) (sem_CPI_from_hex n) s

end Epc.Src
