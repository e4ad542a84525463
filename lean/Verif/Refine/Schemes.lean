/-
The scheme classes as one type, and the dictionaries of /repo/epcpy/utils/parsers.py.
-/
import Verif.Refine.Adi
import Verif.Refine.Bic
import Verif.Refine.Cpi
import Verif.Refine.Gdti
import Verif.Refine.Giai
import Verif.Refine.Gid
import Verif.Refine.Ginc
import Verif.Refine.Grai
import Verif.Refine.Gsin
import Verif.Refine.Gsrn
import Verif.Refine.Gsrnp
import Verif.Refine.Imovn
import Verif.Refine.Itip
import Verif.Refine.Lgtin
import Verif.Refine.Pgln
import Verif.Refine.Sgcn
import Verif.Refine.Sgln
import Verif.Refine.Sgtin
import Verif.Refine.Sscc
import Verif.Refine.Upui
import Verif.Refine.Usdod
import Verif.Model.Parsers
set_option linter.unusedSimpArgs false

namespace Epc.Src
open Epc.Spec

theorem map_lift {α β : Type} (r : Except Err α) (g : α → β) (f : β → Val) : (lift (r.map g)).map f = (lift r).map (fun x => f (g x)) := by
  cases r <;> rfl

theorem sem_new (n : Nat) (c : Cls) (u : Str) : (level (n + 10)).app (.cls (clOf c)) [.str u] [] = (lift (c.new u)).map objScheme := by
  cases c <;> (rw [Cls.new, map_lift])
  · exact sem_ADI n u
  · exact sem_BIC n u
  · exact sem_CPI n u
  · exact sem_GDTI n u
  · exact sem_GIAI n u
  · exact sem_GID n u
  · exact sem_GINC n u
  · exact sem_GRAI n u
  · exact sem_GSIN n u
  · exact sem_GSRN n u
  · exact sem_GSRNP n u
  · exact sem_IMOVN n u
  · exact sem_ITIP n u
  · exact sem_LGTIN n u
  · exact sem_PGLN n u
  · exact sem_SGCN n u
  · exact sem_SGLN n u
  · exact sem_SGTIN n u
  · exact sem_SSCC n u
  · exact sem_UPUI n u
  · exact sem_USDOD n u

theorem sem_from_epc_uri (n : Nat) (c : Cls) (u : Str) :
    (level (n + 11)).app (.bound EPCScheme.from_epc_uri (.cls (clOf c))) [.str u] [] = (lift (c.new u)).map objScheme := by
  rw [app_bound]
  exe [EPCScheme.from_epc_uri, sem_new]

theorem attr_from_epc_uri (L : Level) (c : Cls) :
    getAttr L (.cls (clOf c)) .from_epc_uri = .ok (.bound EPCScheme.from_epc_uri (.cls (clOf c))) := by cases c <;> rfl

theorem identifiers (n : Nat) : (level (n + 3)).const .parsers [] parsers.EPC_SCHEME_IDENTIFIERS =
    .ok (.dict (Cls.all.map (fun c => (.str c.name, .cls (clOf c))))) := rfl
theorem tag_identifiers (n : Nat) : (level (n + 4)).const .parsers [] parsers.TAG_ENCODABLE_SCHEME_IDENTIFIERS =
    .ok (.dict ((Cls.all.filter Cls.isTagEncodable).map (fun c => (.str c.name, .cls (clOf c))))) := rfl
theorem keyed_identifiers (n : Nat) : (level (n + 4)).const .parsers [] parsers.GS1_KEYED_SCHEME_IDENTIFIERS =
    .ok (.dict ((Cls.all.filter Cls.isGs1Keyed).map (fun c => (.str c.name, .cls (clOf c))))) := rfl
theorem binary_headers (n : Nat) : (level (n + 4)).const .parsers [] parsers.TAG_ENCODABLE_BINARY_HEADERS =
    .ok (.dict (binaryHeaderTable.map (fun h => (.str h.1, .cls (clOf h.2))))) := rfl

theorem hex_headers (n : Nat) : (level (n + 6)).const .parsers [] parsers.TAG_ENCODABLE_HEX_HEADERS =
    .ok (.dict (binaryHeaderTable.filterMap (fun h => (binaryToHex h.1).toOption.map (fun x => (.str x, .cls (clOf h.2)))))) := rfl
theorem escape_schemes (n : Nat) : (level (n + 3)).const .parsers [] parsers.ONE_ESCAPE_ALLOWED_SCHEMES =
    .ok (.list (oneEscapeAllowed.map .str)) := rfl

theorem dictGet_name (id : Str) (p : Cls → Bool) : ∀ l : List Cls,
    dictGet (.str id) ((l.filter p).map (fun c => (.str c.name, .cls (clOf c)))) =
      (l.find? (fun c => p c && decide (c.name = id))).map (fun c => .cls (clOf c))
  | [] => rfl
  | c :: l => by
    have ih := dictGet_name id p l
    cases hp : p c with
    | false => simp only [List.filter_cons, hp, List.find?_cons, Bool.false_and]; exact ih
    | true =>
      simp only [List.filter_cons, hp, List.find?_cons, Bool.true_and, if_true, List.map_cons]
      rw [dictGet, ih]
      show (if (id == c.name) = true then _ else _) = _
      by_cases h : c.name = id
      · rw [decide_eq_true h, if_pos (by rw [h]; simp)]; rfl
      · rw [decide_eq_false h, if_neg (by simpa using fun e => h e.symm)]

theorem dictGet_all (id : Str) : dictGet (.str id) (Cls.all.map (fun c => (.str c.name, .cls (clOf c)))) =
    (clsByName (fun _ => true) id).map (fun c => .cls (clOf c)) := dictGet_name id (fun _ => true) Cls.all
theorem dictGet_some (id : Str) (p : Cls → Bool) : dictGet (.str id) ((Cls.all.filter p).map (fun c => (.str c.name, .cls (clOf c)))) =
    (clsByName p id).map (fun c => .cls (clOf c)) := dictGet_name id p Cls.all

theorem item_of_get (d : List (Val × Val)) (k v : Val) (h : dictGet k d = some v) : getItem (.dict d) k = .ok v := by
  cases k <;> simp only [getItem, h]

/-- `gs1_element_string` of a class. -/
def elemDef : Cls → FunDef
  | .cpi => CPI.gs1_element_string
  | .gdti => GDTI.gs1_element_string
  | .giai => GIAI.gs1_element_string
  | .ginc => GINC.gs1_element_string
  | .grai => GRAI.gs1_element_string
  | .gsin => GSIN.gs1_element_string
  | .gsrn => GSRN.gs1_element_string
  | .gsrnp => GSRNP.gs1_element_string
  | .itip => ITIP.gs1_element_string
  | .lgtin => LGTIN.gs1_element_string
  | .pgln => PGLN.gs1_element_string
  | .sgcn => SGCN.gs1_element_string
  | .sgln => SGLN.gs1_element_string
  | .sgtin => SGTIN.gs1_element_string
  | .sscc => SSCC.gs1_element_string
  | .upui => UPUI.gs1_element_string
  | _ => EPCScheme.from_epc_uri
/-- `from_gs1_element_string` of a class. -/
def fromElemDef : Cls → FunDef
  | .cpi => CPI.from_gs1_element_string
  | .gdti => GDTI.from_gs1_element_string
  | .giai => GIAI.from_gs1_element_string
  | .ginc => GINC.from_gs1_element_string
  | .grai => GRAI.from_gs1_element_string
  | .gsin => GSIN.from_gs1_element_string
  | .gsrn => GSRN.from_gs1_element_string
  | .gsrnp => GSRNP.from_gs1_element_string
  | .itip => ITIP.from_gs1_element_string
  | .lgtin => LGTIN.from_gs1_element_string
  | .pgln => PGLN.from_gs1_element_string
  | .sgcn => SGCN.from_gs1_element_string
  | .sgln => SGLN.from_gs1_element_string
  | .sgtin => SGTIN.from_gs1_element_string
  | .sscc => SSCC.from_gs1_element_string
  | .upui => UPUI.from_gs1_element_string
  | _ => EPCScheme.from_epc_uri
/-- `gs1_key` of a class. -/
def keyDef : Cls → FunDef
  | .gdti => GDTI.gs1_key
  | .giai => GIAI.gs1_key
  | .ginc => GINC.gs1_key
  | .grai => GRAI.gs1_key
  | .gsin => GSIN.gs1_key
  | .gsrn => GSRN.gs1_key
  | .gsrnp => GSRNP.gs1_key
  | .lgtin => LGTIN.gs1_key
  | .pgln => PGLN.gs1_key
  | .sgcn => SGCN.gs1_key
  | .sgln => SGLN.gs1_key
  | .sgtin => SGTIN.gs1_key
  | .sscc => SSCC.gs1_key
  | _ => EPCScheme.from_epc_uri
/-- `from_binary` of a class. -/
def fromBinaryDef : Cls → FunDef
  | .adi => ADI.from_binary
  | .cpi => CPI.from_binary
  | .gdti => GDTI.from_binary
  | .giai => GIAI.from_binary
  | .gid => GID.from_binary
  | .grai => GRAI.from_binary
  | .gsrn => GSRN.from_binary
  | .gsrnp => GSRNP.from_binary
  | .itip => ITIP.from_binary
  | .sgcn => SGCN.from_binary
  | .sgln => SGLN.from_binary
  | .sgtin => SGTIN.from_binary
  | .sscc => SSCC.from_binary
  | .usdod => USDOD.from_binary
  | _ => EPCScheme.from_epc_uri
/-- `from_tag_uri` of a class. -/
def fromTagUriDef : Cls → FunDef
  | .gid => GID.from_tag_uri
  | _ => TagEncodable.from_tag_uri

theorem attr_elem (L : Level) (x : Scheme) (h : x.cls.isGs1Element = true) :
    getAttr L (objScheme x) .gs1_element_string = .ok (.bound (elemDef x.cls) (objScheme x)) := by
  cases x
  · cases h
  · cases h
  · exact rfl
  · exact rfl
  · exact rfl
  · cases h
  · exact rfl
  · exact rfl
  · exact rfl
  · exact rfl
  · exact rfl
  · cases h
  · exact rfl
  · exact rfl
  · exact rfl
  · exact rfl
  · exact rfl
  · exact rfl
  · exact rfl
  · exact rfl
  · cases h
theorem attr_key (L : Level) (x : Scheme) (h : x.cls.isGs1Keyed = true) :
    getAttr L (objScheme x) .gs1_key = .ok (.bound (keyDef x.cls) (objScheme x)) := by
  cases x
  · cases h
  · cases h
  · cases h
  · exact rfl
  · exact rfl
  · cases h
  · exact rfl
  · exact rfl
  · exact rfl
  · exact rfl
  · exact rfl
  · cases h
  · cases h
  · exact rfl
  · exact rfl
  · exact rfl
  · exact rfl
  · exact rfl
  · exact rfl
  · cases h
  · cases h
theorem attr_from_elem (L : Level) (c : Cls) (h : c.isGs1Element = true) :
    getAttr L (.cls (clOf c)) .from_gs1_element_string = .ok (.bound (fromElemDef c) (.cls (clOf c))) := by
  cases c
  · cases h
  · cases h
  · exact rfl
  · exact rfl
  · exact rfl
  · cases h
  · exact rfl
  · exact rfl
  · exact rfl
  · exact rfl
  · exact rfl
  · cases h
  · exact rfl
  · exact rfl
  · exact rfl
  · exact rfl
  · exact rfl
  · exact rfl
  · exact rfl
  · exact rfl
  · cases h
theorem attr_from_tag_uri (L : Level) (c : Cls) (h : c.isTagEncodable = true) :
    getAttr L (.cls (clOf c)) .from_tag_uri = .ok (.bound (fromTagUriDef c) (.cls (clOf c))) := by
  cases c
  · exact rfl
  · cases h
  · exact rfl
  · exact rfl
  · exact rfl
  · exact rfl
  · cases h
  · exact rfl
  · cases h
  · exact rfl
  · exact rfl
  · cases h
  · exact rfl
  · cases h
  · cases h
  · exact rfl
  · exact rfl
  · exact rfl
  · exact rfl
  · cases h
  · exact rfl
theorem attr_from_binary (L : Level) (c : Cls) (h : c.isTagEncodable = true) :
    getAttr L (.cls (clOf c)) .from_binary = .ok (.bound (fromBinaryDef c) (.cls (clOf c))) := by
  cases c
  · exact rfl
  · cases h
  · exact rfl
  · exact rfl
  · exact rfl
  · exact rfl
  · cases h
  · exact rfl
  · cases h
  · exact rfl
  · exact rfl
  · cases h
  · exact rfl
  · cases h
  · cases h
  · exact rfl
  · exact rfl
  · exact rfl
  · exact rfl
  · cases h
  · exact rfl

theorem sem_elem (n : Nat) (x : Scheme) (h : x.cls.isGs1Element = true) :
    (level (n + 10)).app (.bound (elemDef x.cls) (objScheme x)) [] [] = (lift x.gs1ElementString).map .str := by
  cases x
  · cases h
  · cases h
  · exact sem_CPI_gs1_element_string n _
  · exact sem_GDTI_gs1_element_string n _
  · exact sem_GIAI_gs1_element_string n _
  · cases h
  · exact sem_GINC_gs1_element_string n _
  · exact sem_GRAI_gs1_element_string n _
  · exact sem_GSIN_gs1_element_string n _
  · exact sem_GSRN_gs1_element_string n _
  · exact sem_GSRNP_gs1_element_string n _
  · cases h
  · exact sem_ITIP_gs1_element_string n _
  · exact sem_LGTIN_gs1_element_string n _
  · exact sem_PGLN_gs1_element_string n _
  · exact sem_SGCN_gs1_element_string n _
  · exact sem_SGLN_gs1_element_string n _
  · exact sem_SGTIN_gs1_element_string n _
  · exact sem_SSCC_gs1_element_string n _
  · exact sem_UPUI_gs1_element_string n _
  · cases h

theorem sem_key (n : Nat) (x : Scheme) (t : Option GtinType) (h : x.cls.isGs1Keyed = true) :
    (level (n + 10)).app (.bound (keyDef x.cls) (objScheme x)) [] (keyKw t) = (lift (x.gs1Key t)).map .str := by
  cases x
  · cases h
  · cases h
  · cases h
  · exact (by cases t <;> rfl)
  · exact (by cases t <;> rfl)
  · cases h
  · exact (by cases t <;> rfl)
  · exact (by cases t <;> rfl)
  · exact (by cases t <;> rfl)
  · exact (by cases t <;> rfl)
  · exact (by cases t <;> rfl)
  · cases h
  · cases h
  · exact (by cases t with | none => exact sem_LGTIN_gs1_key n _ .gtin14 | some t => exact sem_LGTIN_gs1_key n _ t)
  · exact (by cases t <;> rfl)
  · exact (by cases t <;> rfl)
  · exact (by cases t <;> rfl)
  · exact (by cases t with | none => exact sem_SGTIN_gs1_key n _ .gtin14 | some t => exact sem_SGTIN_gs1_key n _ t)
  · exact (by cases t <;> rfl)
  · cases h
  · cases h

theorem sem_from_elem (n : Nat) (c : Cls) (s : Str) (k : Int) (h : c.isGs1Element = true) :
    (level (n + 11)).app (.bound (fromElemDef c) (.cls (clOf c))) [.str s, .int k] [] = (lift (c.fromGs1ElementString s k)).map objScheme := by
  cases c
  · cases h
  · cases h
  · rw [Cls.fromGs1ElementString, map_lift]; exact sem_CPI_from_gs1_element_string n s k
  · rw [Cls.fromGs1ElementString, map_lift]; exact sem_GDTI_from_gs1_element_string n s k
  · rw [Cls.fromGs1ElementString, map_lift]; exact sem_GIAI_from_gs1_element_string n s k
  · cases h
  · rw [Cls.fromGs1ElementString, map_lift]; exact sem_GINC_from_gs1_element_string n s k
  · rw [Cls.fromGs1ElementString, map_lift]; exact sem_GRAI_from_gs1_element_string n s k
  · rw [Cls.fromGs1ElementString, map_lift]; exact sem_GSIN_from_gs1_element_string n s k
  · rw [Cls.fromGs1ElementString, map_lift]; exact sem_GSRN_from_gs1_element_string n s k
  · rw [Cls.fromGs1ElementString, map_lift]; exact sem_GSRNP_from_gs1_element_string n s k
  · cases h
  · rw [Cls.fromGs1ElementString, map_lift]; exact sem_ITIP_from_gs1_element_string n s k
  · rw [Cls.fromGs1ElementString, map_lift]; exact sem_LGTIN_from_gs1_element_string n s k
  · rw [Cls.fromGs1ElementString, map_lift]; exact sem_PGLN_from_gs1_element_string n s k
  · rw [Cls.fromGs1ElementString, map_lift]; exact sem_SGCN_from_gs1_element_string n s k
  · rw [Cls.fromGs1ElementString, map_lift]; exact sem_SGLN_from_gs1_element_string n s k
  · rw [Cls.fromGs1ElementString, map_lift]; exact sem_SGTIN_from_gs1_element_string n s k
  · rw [Cls.fromGs1ElementString, map_lift]; exact sem_SSCC_from_gs1_element_string n s k
  · rw [Cls.fromGs1ElementString, map_lift]; exact sem_UPUI_from_gs1_element_string n s k
  · cases h

theorem sem_from_tag (n : Nat) (c : Cls) (t : Str) (h : c.isTagEncodable = true) :
    (level (n + 12)).app (.bound (fromTagUriDef c) (.cls (clOf c))) [.str t] [] = (lift (c.fromTagUri t)).map objScheme := by
  cases c
  · rw [Cls.fromTagUri, map_lift]; exact sem_ADI_from_tag_uri (n + 1) t
  · cases h
  · rw [Cls.fromTagUri, map_lift]; exact sem_CPI_from_tag_uri (n + 1) t
  · rw [Cls.fromTagUri, map_lift]; exact sem_GDTI_from_tag_uri (n + 1) t
  · rw [Cls.fromTagUri, map_lift]; exact sem_GIAI_from_tag_uri (n + 1) t
  · rw [Cls.fromTagUri, map_lift]; exact sem_GID_from_tag_uri n t
  · cases h
  · rw [Cls.fromTagUri, map_lift]; exact sem_GRAI_from_tag_uri (n + 1) t
  · cases h
  · rw [Cls.fromTagUri, map_lift]; exact sem_GSRN_from_tag_uri (n + 1) t
  · rw [Cls.fromTagUri, map_lift]; exact sem_GSRNP_from_tag_uri (n + 1) t
  · cases h
  · rw [Cls.fromTagUri, map_lift]; exact sem_ITIP_from_tag_uri (n + 1) t
  · cases h
  · cases h
  · rw [Cls.fromTagUri, map_lift]; exact sem_SGCN_from_tag_uri (n + 1) t
  · rw [Cls.fromTagUri, map_lift]; exact sem_SGLN_from_tag_uri (n + 1) t
  · rw [Cls.fromTagUri, map_lift]; exact sem_SGTIN_from_tag_uri (n + 1) t
  · rw [Cls.fromTagUri, map_lift]; exact sem_SSCC_from_tag_uri (n + 1) t
  · cases h
  · rw [Cls.fromTagUri, map_lift]; exact sem_USDOD_from_tag_uri (n + 1) t

theorem sem_from_bin (n : Nat) (c : Cls) (b : Str) (h : c.isTagEncodable = true) :
    (level (n + 14)).app (.bound (fromBinaryDef c) (.cls (clOf c))) [.str b] [] = (lift (c.fromBinary b)).map objScheme := by
  cases c
  · rw [Cls.fromBinary, map_lift]; exact sem_ADI_from_binary n b
  · cases h
  · rw [Cls.fromBinary, map_lift]; exact sem_CPI_from_binary n b
  · rw [Cls.fromBinary, map_lift]; exact sem_GDTI_from_binary n b
  · rw [Cls.fromBinary, map_lift]; exact sem_GIAI_from_binary n b
  · rw [Cls.fromBinary, map_lift]; exact sem_GID_from_binary n b
  · cases h
  · rw [Cls.fromBinary, map_lift]; exact sem_GRAI_from_binary n b
  · cases h
  · rw [Cls.fromBinary, map_lift]; exact sem_GSRN_from_binary n b
  · rw [Cls.fromBinary, map_lift]; exact sem_GSRNP_from_binary n b
  · cases h
  · rw [Cls.fromBinary, map_lift]; exact sem_ITIP_from_binary n b
  · cases h
  · cases h
  · rw [Cls.fromBinary, map_lift]; exact sem_SGCN_from_binary n b
  · rw [Cls.fromBinary, map_lift]; exact sem_SGLN_from_binary n b
  · rw [Cls.fromBinary, map_lift]; exact sem_SGTIN_from_binary n b
  · rw [Cls.fromBinary, map_lift]; exact sem_SSCC_from_binary n b
  · cases h
  · rw [Cls.fromBinary, map_lift]; exact sem_USDOD_from_binary n b

end Epc.Src
