/-
The objects, classes and coding schemes of the model as values of the interpreter, and the arguments of the functions that take optional ones.
An object is its class and its attributes in the order in which `__init__` assigns them; a coding scheme is a member of the enumeration
`BinaryCodingScheme` of its class.
-/
import Verif.Src.Interp
import Verif.Model.Parsers
import Verif.Model.Foreign
import Verif.Model.Classes

namespace Epc.Src

/-- The attributes every object that can be encoded has. -/
def tagAttrs (u : Str) (rest : List (Nm × Val)) : List (Nm × Val) :=
  (.epc_uri, .str u) :: (._base64, .none) :: (._binary, .none) :: (._hex, .none) :: (._tag_uri, .none) :: rest

/-- An SGTIN as an object. -/
def objSGTIN (x : Epc.SGTIN) : Val :=
  .obj .SGTIN (tagAttrs x.epcUri [(._company_pref, .str x.companyPref), (._item_ref, .str x.itemRef), (._serial, .str x.serial), (._gtin, .str x.gtin14)])

/-- An object of class SSCC. -/
def objSSCC (x : Epc.SSCC) : Val := .obj .SSCC (tagAttrs x.epcUri [(._company_pref, .str x.companyPref), (._serial, .str x.serial), (._sscc, .str x.sscc)])

/-- An object of class SGLN. -/
def objSGLN (x : Epc.SGLN) : Val := .obj .SGLN (tagAttrs x.epcUri [(._company_pref, .str x.companyPref), (._location_ref, .str x.locationRef), (._serial, .str x.serial), (._gln, .str x.gln)])

/-- An object of class GRAI. -/
def objGRAI (x : Epc.GRAI) : Val := .obj .GRAI (tagAttrs x.epcUri [(._serial, .str x.serial), (._company_pref, .str x.companyPref), (._asset_type, .str x.assetType), (._grai, .str x.grai)])

/-- An object of class GIAI. -/
def objGIAI (x : Epc.GIAI) : Val := .obj .GIAI (tagAttrs x.epcUri [(._company_pref, .str x.companyPref), (._asset_ref, .str x.assetRef), (._giai, .str x.giai)])

/-- An object of class GSRN. -/
def objGSRN (x : Epc.GSRN) : Val := .obj .GSRN (tagAttrs x.epcUri [(._company_pref, .str x.companyPref), (._service_ref, .str x.serviceRef), (._gsrn, .str x.gsrn)])

/-- An object of class GSRNP. -/
def objGSRNP (x : Epc.GSRNP) : Val := .obj .GSRNP (tagAttrs x.epcUri [(._company_pref, .str x.companyPref), (._service_ref, .str x.serviceRef), (._gsrnp, .str x.gsrnp)])

/-- An object of class GDTI. -/
def objGDTI (x : Epc.GDTI) : Val := .obj .GDTI (tagAttrs x.epcUri [(._serial, .str x.serial), (._company_pref, .str x.companyPref), (._doc_type, .str x.docType), (._gdti, .str x.gdti)])

/-- An object of class CPI. -/
def objCPI (x : Epc.CPI) : Val := .obj .CPI (tagAttrs x.epcUri [(._company_pref, .str x.companyPref), (._cp_ref, .str x.cpRef), (._serial, .str x.serial)])

/-- An object of class SGCN. -/
def objSGCN (x : Epc.SGCN) : Val := .obj .SGCN (tagAttrs x.epcUri [(._company_pref, .str x.companyPref), (._coupon_ref, .str x.couponRef), (._serial, .str x.serial), (._gcn, .str x.gcn)])

/-- An object of class ITIP. -/
def objITIP (x : Epc.ITIP) : Val := .obj .ITIP (tagAttrs x.epcUri [(._company_pref, .str x.companyPref), (._item_ref, .str x.itemRef), (._piece, .str x.piece), (._total, .str x.total), (._serial, .str x.serial)])

/-- An object of class GID. -/
def objGID (x : Epc.GID) : Val := .obj .GID (tagAttrs x.epcUri [(._manager, .str x.manager), (._object, .str x.object), (._serial, .str x.serial)])

/-- An object of class USDOD. -/
def objUSDOD (x : Epc.USDOD) : Val := .obj .USDOD (tagAttrs x.epcUri [(._cage_dodaac, .str x.cage), (._serial, .str x.serial)])

/-- An object of class ADI. -/
def objADI (x : Epc.ADI) : Val := .obj .ADI (tagAttrs x.epcUri [(._cage_dodaac, .str x.cage), (._part_number, .str x.partNumber), (._serial, .str x.serial)])

/-- An object of class GINC. -/
def objGINC (x : Epc.GINC) : Val := .obj .GINC ((.epc_uri, .str x.epcUri) :: [(._ginc, .str x.ginc)])

/-- An object of class GSIN. -/
def objGSIN (x : Epc.GSIN) : Val := .obj .GSIN ((.epc_uri, .str x.epcUri) :: [(._company_prefix, .str x.companyPref), (._shipper_ref, .str x.shipperRef), (._gsin, .str x.gsin)])

/-- An object of class UPUI. -/
def objUPUI (x : Epc.UPUI) : Val := .obj .UPUI ((.epc_uri, .str x.epcUri) :: [(._company_pref, .str x.companyPref), (._item_ref, .str x.itemRef), (._tpx, .str x.tpx)])

/-- An object of class PGLN. -/
def objPGLN (x : Epc.PGLN) : Val := .obj .PGLN ((.epc_uri, .str x.epcUri) :: [(._company_pref, .str x.companyPref), (._party_ref, .str x.partyRef), (._pgln, .str x.pgln)])

/-- An object of class LGTIN. -/
def objLGTIN (x : Epc.LGTIN) : Val := .obj .LGTIN ((.epc_uri, .str x.epcUri) :: [(._company_pref, .str x.companyPref), (._item_ref, .str x.itemRef), (._lot, .str x.lot), (._gtin, .str x.gtin14)])

/-- An object of class BIC. -/
def objBIC (x : Epc.BIC) : Val := .obj .BIC ((.epc_uri, .str x.epcUri) :: [(._container_code, .str x.containerCode), (._owner_code, .str x.ownerCode), (._equipment_category_identifier, .str x.equipmentCategory), (._serial, .str x.serial), (._check_digit, .str x.checkDigit)])

/-- An object of class IMOVN. -/
def objIMOVN (x : Epc.IMOVN) : Val := .obj .IMOVN ((.epc_uri, .str x.epcUri) :: [(._vessel_number, .str x.vesselNumber)])

/-- A coding scheme of SGTIN. -/
def codSGTIN : Epc.SGTIN.Coding → Val
  | .sgtin96 => .member .SGTIN .BinaryCodingScheme .SGTIN_96 (py "SGTIN_96") (py "sgtin-96")
  | .sgtin198 => .member .SGTIN .BinaryCodingScheme .SGTIN_198 (py "SGTIN_198") (py "sgtin-198")

/-- A coding scheme of SSCC. -/
def codSSCC : Epc.SSCC.Coding → Val
  | .sscc96 => .member .SSCC .BinaryCodingScheme .SSCC_96 (py "SSCC_96") (py "sscc-96")

/-- A coding scheme of SGLN. -/
def codSGLN : Epc.SGLN.Coding → Val
  | .sgln96 => .member .SGLN .BinaryCodingScheme .SGLN_96 (py "SGLN_96") (py "sgln-96")
  | .sgln195 => .member .SGLN .BinaryCodingScheme .SGLN_195 (py "SGLN_195") (py "sgln-195")

/-- A coding scheme of GRAI. -/
def codGRAI : Epc.GRAI.Coding → Val
  | .grai96 => .member .GRAI .BinaryCodingScheme .GRAI_96 (py "GRAI_96") (py "grai-96")
  | .grai170 => .member .GRAI .BinaryCodingScheme .GRAI_170 (py "GRAI_170") (py "grai-170")

/-- A coding scheme of GIAI. -/
def codGIAI : Epc.GIAI.Coding → Val
  | .giai96 => .member .GIAI .BinaryCodingScheme .GIAI_96 (py "GIAI_96") (py "giai-96")
  | .giai202 => .member .GIAI .BinaryCodingScheme .GIAI_202 (py "GIAI_202") (py "giai-202")

/-- A coding scheme of GSRN. -/
def codGSRN : Epc.GSRN.Coding → Val
  | .gsrn96 => .member .GSRN .BinaryCodingScheme .GSRN_96 (py "GSRN_96") (py "gsrn-96")

/-- A coding scheme of GSRNP. -/
def codGSRNP : Epc.GSRNP.Coding → Val
  | .gsrnp96 => .member .GSRNP .BinaryCodingScheme .GSRNP_96 (py "GSRNP_96") (py "gsrnp-96")

/-- A coding scheme of GDTI. -/
def codGDTI : Epc.GDTI.Coding → Val
  | .gdti96 => .member .GDTI .BinaryCodingScheme .GDTI_96 (py "GDTI_96") (py "gdti-96")
  | .gdti174 => .member .GDTI .BinaryCodingScheme .GDTI_174 (py "GDTI_174") (py "gdti-174")

/-- A coding scheme of CPI. -/
def codCPI : Epc.CPI.Coding → Val
  | .cpi96 => .member .CPI .BinaryCodingScheme .CPI_96 (py "CPI_96") (py "cpi-96")
  | .cpiVar => .member .CPI .BinaryCodingScheme .CPI_VAR (py "CPI_VAR") (py "cpi-var")

/-- A coding scheme of SGCN. -/
def codSGCN : Epc.SGCN.Coding → Val
  | .sgcn96 => .member .SGCN .BinaryCodingScheme .SGCN_96 (py "SGCN_96") (py "sgcn-96")

/-- A coding scheme of ITIP. -/
def codITIP : Epc.ITIP.Coding → Val
  | .itip110 => .member .ITIP .BinaryCodingScheme .ITIP_110 (py "ITIP_110") (py "itip-110")
  | .itip212 => .member .ITIP .BinaryCodingScheme .ITIP_212 (py "ITIP_212") (py "itip-212")

/-- A coding scheme of GID. -/
def codGID : Epc.GID.Coding → Val
  | .gid96 => .member .GID .BinaryCodingScheme .GID_96 (py "GID_96") (py "gid-96")

/-- A coding scheme of USDOD. -/
def codUSDOD : Epc.USDOD.Coding → Val
  | .usdod96 => .member .USDOD .BinaryCodingScheme .USDOD_96 (py "USDOD_96") (py "usdod-96")

/-- A coding scheme of ADI. -/
def codADI : Epc.ADI.Coding → Val
  | .adiVar => .member .ADI .BinaryCodingScheme .ADI_VAR (py "ADI_VAR") (py "adi-var")

/-- A coding scheme of any class. -/
def codAny : AnyCoding → Val
  | .sgtin cs => codSGTIN cs
  | .sscc cs => codSSCC cs
  | .sgln cs => codSGLN cs
  | .grai cs => codGRAI cs
  | .giai cs => codGIAI cs
  | .gsrn cs => codGSRN cs
  | .gsrnp cs => codGSRNP cs
  | .gdti cs => codGDTI cs
  | .cpi cs => codCPI cs
  | .sgcn cs => codSGCN cs
  | .itip cs => codITIP cs
  | .gid cs => codGID cs
  | .usdod cs => codUSDOD cs
  | .adi cs => codADI cs

/-- The class in the source. -/
def clOf : Cls → Cl
  | .adi => .ADI
  | .bic => .BIC
  | .cpi => .CPI
  | .gdti => .GDTI
  | .giai => .GIAI
  | .gid => .GID
  | .ginc => .GINC
  | .grai => .GRAI
  | .gsin => .GSIN
  | .gsrn => .GSRN
  | .gsrnp => .GSRNP
  | .imovn => .IMOVN
  | .itip => .ITIP
  | .lgtin => .LGTIN
  | .pgln => .PGLN
  | .sgcn => .SGCN
  | .sgln => .SGLN
  | .sgtin => .SGTIN
  | .sscc => .SSCC
  | .upui => .UPUI
  | .usdod => .USDOD

/-- An object of a scheme class. -/
def objScheme : Scheme → Val
  | .adi x => objADI x
  | .bic x => objBIC x
  | .cpi x => objCPI x
  | .gdti x => objGDTI x
  | .giai x => objGIAI x
  | .gid x => objGID x
  | .ginc x => objGINC x
  | .grai x => objGRAI x
  | .gsin x => objGSIN x
  | .gsrn x => objGSRN x
  | .gsrnp x => objGSRNP x
  | .imovn x => objIMOVN x
  | .itip x => objITIP x
  | .lgtin x => objLGTIN x
  | .pgln x => objPGLN x
  | .sgcn x => objSGCN x
  | .sgln x => objSGLN x
  | .sgtin x => objSGTIN x
  | .sscc x => objSSCC x
  | .upui x => objUPUI x
  | .usdod x => objUSDOD x

/-- The keyword arguments of `gs1_key`. -/
def keyKw : Option GtinType → List (Nm × Val)
  | none => []
  | some t => [(.gtin_type, .int t.toNat)]

/-- The company prefix length as an argument. -/
def lenArg : Option Int → List Val
  | none => []
  | some k => [.int k]

/-- The class of the source; it has no statement for `object`. -/
def clPy : PyCls → Option Cl
  | .object => .none
  | .epcScheme => some .EPCScheme
  | .tagEncodable => some .TagEncodable
  | .gs1Element => some .GS1Element
  | .gs1Keyed => some .GS1Keyed
  | .scheme c => some (clOf c)

end Epc.Src
