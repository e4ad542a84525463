/-
The source of /repo/epcpy/utils/regex.py.
Generated by tools/gen_src.py from the syntax trees of /repo/epcpy.
-/
import Verif.Src.Syntax

namespace Epc.Src

/-- `CPREF_COMPONENT`.  /repo/epcpy/utils/regex.py:2-2 -/
def regex.CPREF_COMPONENT : Str :=
  (py "([0-9A-Z-]|%2F|%23)+")

/-- `NUMERIC_COMPONENT`.  /repo/epcpy/utils/regex.py:3-3 -/
def regex.NUMERIC_COMPONENT : Str :=
  (py "(0|[1-9]\\d*)")

/-- `GS3A3_CHAR`.  /repo/epcpy/utils/regex.py:4-4 -/
def regex.GS3A3_CHAR : Str :=
  (py "((%[0-9a-fA-F])|([a-zA-Z0-9!'()*+,-.:;=_]))")

/-- `GS3A3_COMPONENT`.  /repo/epcpy/utils/regex.py:5-5 -/
def regex.GS3A3_COMPONENT : Str :=
  regex.GS3A3_CHAR ++ (py "+")

/-- `PADDED_NUMERIC_COMPONENT`.  /repo/epcpy/utils/regex.py:6-6 -/
def regex.PADDED_NUMERIC_COMPONENT : Str :=
  (py "\\d+")

/-- `PADDED_NUMERIC_COMPONENT_OR_EMPTY`.  /repo/epcpy/utils/regex.py:7-7 -/
def regex.PADDED_NUMERIC_COMPONENT_OR_EMPTY : Str :=
  (py "\\d*")

/-- `VERIFY_GS3A3_CHARS`.  /repo/epcpy/utils/regex.py:8-8 -/
def regex.VERIFY_GS3A3_CHARS : Str :=
  (py "[a-zA-Z0-9!'()*+,-.:;=_\"%&/<>?]+")

/-- `GS1_ELEM_CHARS`.  /repo/epcpy/utils/regex.py:9-9 -/
def regex.GS1_ELEM_CHARS : Str :=
  (py "[a-zA-Z0-9!'()*+,-.:;=_\"%&/<>?]")

/-- `GS1_ELEM_CHARS_CPI`.  /repo/epcpy/utils/regex.py:10-10 -/
def regex.GS1_ELEM_CHARS_CPI : Str :=
  (py "[0-9A-Z\\/\\-\\#]")

/-- `DIGIT`.  /repo/epcpy/utils/regex.py:11-11 -/
def regex.DIGIT : Str :=
  (py "\\d")

/-- `FOUR_PADDED_NUMERIC_COMPONENTS`.  /repo/epcpy/utils/regex.py:13-13 -/
def regex.FOUR_PADDED_NUMERIC_COMPONENTS : Str :=
  regex.PADDED_NUMERIC_COMPONENT ++ (py "\\.") ++ regex.PADDED_NUMERIC_COMPONENT ++ (py "\\.") ++ regex.PADDED_NUMERIC_COMPONENT ++ (py "\\.") ++ regex.PADDED_NUMERIC_COMPONENT

/-- `SGTIN_URI_BODY`.  /repo/epcpy/utils/regex.py:16-18 -/
def regex.SGTIN_URI_BODY : Str :=
  regex.PADDED_NUMERIC_COMPONENT ++ (py "\\.") ++ regex.PADDED_NUMERIC_COMPONENT ++ (py "\\.") ++ regex.GS3A3_COMPONENT

/-- `SGTIN_URI`.  /repo/epcpy/utils/regex.py:19-19 -/
def regex.SGTIN_URI : Str :=
  (py "urn:epc:id:sgtin:") ++ regex.SGTIN_URI_BODY

/-- `SSCC_URI_BODY`.  /repo/epcpy/utils/regex.py:21-21 -/
def regex.SSCC_URI_BODY : Str :=
  regex.PADDED_NUMERIC_COMPONENT ++ (py "\\.") ++ regex.PADDED_NUMERIC_COMPONENT

/-- `SSCC_URI`.  /repo/epcpy/utils/regex.py:22-22 -/
def regex.SSCC_URI : Str :=
  (py "urn:epc:id:sscc:") ++ regex.SSCC_URI_BODY

/-- `SGLN_URI_BODY`.  /repo/epcpy/utils/regex.py:24-24 -/
def regex.SGLN_URI_BODY : Str :=
  regex.PADDED_NUMERIC_COMPONENT ++ (py "\\.") ++ regex.PADDED_NUMERIC_COMPONENT_OR_EMPTY ++ (py "\\.") ++ regex.GS3A3_COMPONENT

/-- `SGLN_URI`.  /repo/epcpy/utils/regex.py:25-25 -/
def regex.SGLN_URI : Str :=
  (py "urn:epc:id:sgln:") ++ regex.SGLN_URI_BODY

/-- `GRAI_URI_BODY`.  /repo/epcpy/utils/regex.py:27-27 -/
def regex.GRAI_URI_BODY : Str :=
  regex.PADDED_NUMERIC_COMPONENT ++ (py "\\.") ++ regex.PADDED_NUMERIC_COMPONENT_OR_EMPTY ++ (py "\\.") ++ regex.GS3A3_COMPONENT

/-- `GRAI_URI`.  /repo/epcpy/utils/regex.py:28-28 -/
def regex.GRAI_URI : Str :=
  (py "urn:epc:id:grai:") ++ regex.GRAI_URI_BODY

/-- `GIAI_URI_BODY`.  /repo/epcpy/utils/regex.py:30-30 -/
def regex.GIAI_URI_BODY : Str :=
  regex.PADDED_NUMERIC_COMPONENT ++ (py "\\.") ++ regex.GS3A3_COMPONENT

/-- `GIAI_URI`.  /repo/epcpy/utils/regex.py:31-31 -/
def regex.GIAI_URI : Str :=
  (py "urn:epc:id:giai:") ++ regex.GIAI_URI_BODY

/-- `GSRN_URI_BODY`.  /repo/epcpy/utils/regex.py:33-33 -/
def regex.GSRN_URI_BODY : Str :=
  regex.PADDED_NUMERIC_COMPONENT ++ (py "\\.") ++ regex.PADDED_NUMERIC_COMPONENT

/-- `GSRN_URI`.  /repo/epcpy/utils/regex.py:34-34 -/
def regex.GSRN_URI : Str :=
  (py "urn:epc:id:gsrn:") ++ regex.GSRN_URI_BODY

/-- `GSRNP_URI_BODY`.  /repo/epcpy/utils/regex.py:36-36 -/
def regex.GSRNP_URI_BODY : Str :=
  regex.PADDED_NUMERIC_COMPONENT ++ (py "\\.") ++ regex.PADDED_NUMERIC_COMPONENT

/-- `GSRNP_URI`.  /repo/epcpy/utils/regex.py:37-37 -/
def regex.GSRNP_URI : Str :=
  (py "urn:epc:id:gsrnp:") ++ regex.GSRN_URI_BODY

/-- `GDTI_URI_BODY`.  /repo/epcpy/utils/regex.py:39-39 -/
def regex.GDTI_URI_BODY : Str :=
  regex.PADDED_NUMERIC_COMPONENT ++ (py "\\.") ++ regex.PADDED_NUMERIC_COMPONENT_OR_EMPTY ++ (py "\\.") ++ regex.GS3A3_COMPONENT

/-- `GDTI_URI`.  /repo/epcpy/utils/regex.py:40-40 -/
def regex.GDTI_URI : Str :=
  (py "urn:epc:id:gdti:") ++ regex.GDTI_URI_BODY

/-- `CPI_URI_BODY`.  /repo/epcpy/utils/regex.py:42-42 -/
def regex.CPI_URI_BODY : Str :=
  regex.PADDED_NUMERIC_COMPONENT ++ (py "\\.") ++ regex.CPREF_COMPONENT ++ (py "\\.") ++ regex.NUMERIC_COMPONENT

/-- `CPI_URI`.  /repo/epcpy/utils/regex.py:43-43 -/
def regex.CPI_URI : Str :=
  (py "urn:epc:id:cpi:") ++ regex.CPI_URI_BODY

/-- `SGCN_URI_BODY`.  /repo/epcpy/utils/regex.py:45-45 -/
def regex.SGCN_URI_BODY : Str :=
  regex.PADDED_NUMERIC_COMPONENT ++ (py "\\.") ++ regex.PADDED_NUMERIC_COMPONENT_OR_EMPTY ++ (py "\\.") ++ regex.PADDED_NUMERIC_COMPONENT

/-- `SGCN_URI`.  /repo/epcpy/utils/regex.py:46-46 -/
def regex.SGCN_URI : Str :=
  (py "urn:epc:id:sgcn:") ++ regex.SGCN_URI_BODY

/-- `GINC_URI_BODY`.  /repo/epcpy/utils/regex.py:48-48 -/
def regex.GINC_URI_BODY : Str :=
  regex.PADDED_NUMERIC_COMPONENT ++ (py "\\.") ++ regex.GS3A3_COMPONENT

/-- `GINC_URI`.  /repo/epcpy/utils/regex.py:49-49 -/
def regex.GINC_URI : Str :=
  (py "urn:epc:id:ginc:") ++ regex.GINC_URI_BODY

/-- `GSIN_URI_BODY`.  /repo/epcpy/utils/regex.py:51-51 -/
def regex.GSIN_URI_BODY : Str :=
  regex.PADDED_NUMERIC_COMPONENT ++ (py "\\.") ++ regex.PADDED_NUMERIC_COMPONENT

/-- `GSIN_URI`.  /repo/epcpy/utils/regex.py:52-52 -/
def regex.GSIN_URI : Str :=
  (py "urn:epc:id:gsin:") ++ regex.GSIN_URI_BODY

/-- `ITIP_URI_BODY`.  /repo/epcpy/utils/regex.py:54-54 -/
def regex.ITIP_URI_BODY : Str :=
  regex.FOUR_PADDED_NUMERIC_COMPONENTS ++ (py "\\.") ++ regex.GS3A3_COMPONENT

/-- `ITIP_URI`.  /repo/epcpy/utils/regex.py:55-55 -/
def regex.ITIP_URI : Str :=
  (py "urn:epc:id:itip:") ++ regex.ITIP_URI_BODY

/-- `UPUI_URI_BODY`.  /repo/epcpy/utils/regex.py:57-57 -/
def regex.UPUI_URI_BODY : Str :=
  regex.PADDED_NUMERIC_COMPONENT ++ (py "\\.") ++ regex.PADDED_NUMERIC_COMPONENT_OR_EMPTY ++ (py "\\.") ++ regex.GS3A3_COMPONENT

/-- `UPUI_URI`.  /repo/epcpy/utils/regex.py:58-58 -/
def regex.UPUI_URI : Str :=
  (py "urn:epc:id:upui:") ++ regex.UPUI_URI_BODY

/-- `PGLN_URI_BODY`.  /repo/epcpy/utils/regex.py:60-60 -/
def regex.PGLN_URI_BODY : Str :=
  regex.PADDED_NUMERIC_COMPONENT ++ (py "\\.") ++ regex.PADDED_NUMERIC_COMPONENT_OR_EMPTY

/-- `PGLN_URI`.  /repo/epcpy/utils/regex.py:61-61 -/
def regex.PGLN_URI : Str :=
  (py "urn:epc:id:pgln:") ++ regex.PGLN_URI_BODY

/-- `GID_URI_BODY`.  /repo/epcpy/utils/regex.py:63-63 -/
def regex.GID_URI_BODY : Str :=
  regex.NUMERIC_COMPONENT ++ (py "\\.") ++ regex.NUMERIC_COMPONENT ++ (py "\\.") ++ regex.NUMERIC_COMPONENT

/-- `GID_URI`.  /repo/epcpy/utils/regex.py:64-64 -/
def regex.GID_URI : Str :=
  (py "urn:epc:id:gid:") ++ regex.GID_URI_BODY

/-- `CAGE_CODE_OR_DODAAC`.  /repo/epcpy/utils/regex.py:66-66 -/
def regex.CAGE_CODE_OR_DODAAC : Str :=
  (py "([0-9A-HJ-NP-Z]){5,6}")

/-- `USDOD_URI_BODY`.  /repo/epcpy/utils/regex.py:67-67 -/
def regex.USDOD_URI_BODY : Str :=
  regex.CAGE_CODE_OR_DODAAC ++ (py "\\.") ++ regex.NUMERIC_COMPONENT

/-- `USDOD_URI`.  /repo/epcpy/utils/regex.py:68-68 -/
def regex.USDOD_URI : Str :=
  (py "urn:epc:id:usdod:") ++ regex.USDOD_URI_BODY

/-- `ADI_CHAR`.  /repo/epcpy/utils/regex.py:70-70 -/
def regex.ADI_CHAR : Str :=
  (py "([A-Z0-9-]|(%2F))")

/-- `ADI_URI_BODY`.  /repo/epcpy/utils/regex.py:71-71 -/
def regex.ADI_URI_BODY : Str :=
  regex.CAGE_CODE_OR_DODAAC ++ (py "\\.") ++ regex.ADI_CHAR ++ (py "*\\.(%23)?") ++ regex.ADI_CHAR ++ (py "+")

/-- `ADI_URI`.  /repo/epcpy/utils/regex.py:72-72 -/
def regex.ADI_URI : Str :=
  (py "urn:epc:id:adi:") ++ regex.ADI_URI_BODY

/-- `BIC_URI_BODY`.  /repo/epcpy/utils/regex.py:74-74 -/
def regex.BIC_URI_BODY : Str :=
  (py "[A-HJ-NP-Z]{3}[JUZ][0-9]{7}")

/-- `BIC_URI`.  /repo/epcpy/utils/regex.py:75-75 -/
def regex.BIC_URI : Str :=
  (py "urn:epc:id:bic:") ++ regex.BIC_URI_BODY

/-- `IMOVN_URI_BODY`.  /repo/epcpy/utils/regex.py:77-77 -/
def regex.IMOVN_URI_BODY : Str :=
  (py "[0-9]{7}")

/-- `IMOVN_URI`.  /repo/epcpy/utils/regex.py:78-78 -/
def regex.IMOVN_URI : Str :=
  (py "urn:epc:id:imovn:") ++ regex.IMOVN_URI_BODY

/-- `LGTIN_CLASS`.  /repo/epcpy/utils/regex.py:80-80 -/
def regex.LGTIN_CLASS : Str :=
  (py "urn:epc:class:lgtin:") ++ regex.PADDED_NUMERIC_COMPONENT ++ (py "\\.") ++ regex.PADDED_NUMERIC_COMPONENT ++ (py "\\.") ++ regex.GS3A3_COMPONENT

/-- `EPC_URI`.  /repo/epcpy/utils/regex.py:82-86 -/
def regex.EPC_URI : Str :=
  (py "(") ++ regex.SGTIN_URI ++ (py "|") ++ regex.SSCC_URI ++ (py "|") ++ regex.SGLN_URI ++ (py "|") ++ regex.GRAI_URI ++ (py "|") ++ regex.GIAI_URI ++ (py "|") ++ regex.GSRN_URI ++ (py "|") ++ regex.GSRNP_URI ++ (py "|") ++ regex.GDTI_URI ++ (py "|") ++ regex.CPI_URI ++ (py "|") ++ regex.SGCN_URI ++ (py "|") ++ regex.GINC_URI ++ (py "|") ++ regex.GSIN_URI ++ (py "|") ++ regex.ITIP_URI ++ (py "|") ++ regex.UPUI_URI ++ (py "|") ++ regex.PGLN_URI ++ (py "|") ++ regex.GID_URI ++ (py "|") ++ regex.USDOD_URI ++ (py "|") ++ regex.ADI_URI ++ (py "|") ++ regex.BIC_URI ++ (py "|") ++ regex.IMOVN_URI ++ (py "|") ++ regex.LGTIN_CLASS ++ (py ")")

/-- `SGTIN_IDPAT_URI_BODY`.  /repo/epcpy/utils/regex.py:89-89 -/
def regex.SGTIN_IDPAT_URI_BODY : Str :=
  (py "sgtin:(") ++ regex.PADDED_NUMERIC_COMPONENT ++ (py "\\.") ++ regex.PADDED_NUMERIC_COMPONENT ++ (py "\\.") ++ regex.GS3A3_COMPONENT ++ (py "|") ++ regex.PADDED_NUMERIC_COMPONENT ++ (py "\\.") ++ regex.PADDED_NUMERIC_COMPONENT ++ (py "\\.\\*|") ++ regex.PADDED_NUMERIC_COMPONENT ++ (py "\\.\\*\\.\\*|\\*\\.\\*\\.\\*)")

/-- `SSCC_IDPAT_URI_BODY`.  /repo/epcpy/utils/regex.py:90-90 -/
def regex.SSCC_IDPAT_URI_BODY : Str :=
  (py "sscc:(") ++ regex.PADDED_NUMERIC_COMPONENT ++ (py "\\.") ++ regex.PADDED_NUMERIC_COMPONENT ++ (py "|") ++ regex.PADDED_NUMERIC_COMPONENT ++ (py "\\.\\*|\\*\\.\\*)")

/-- `SGLN_GRAI_IDPAT_URI_BODY_MAIN`.  /repo/epcpy/utils/regex.py:91-91 -/
def regex.SGLN_GRAI_IDPAT_URI_BODY_MAIN : Str :=
  (py "(") ++ regex.PADDED_NUMERIC_COMPONENT ++ (py "\\.") ++ regex.PADDED_NUMERIC_COMPONENT_OR_EMPTY ++ (py "\\.") ++ regex.GS3A3_COMPONENT ++ (py "|") ++ regex.PADDED_NUMERIC_COMPONENT ++ (py "\\.") ++ regex.PADDED_NUMERIC_COMPONENT_OR_EMPTY ++ (py "\\.\\*|") ++ regex.PADDED_NUMERIC_COMPONENT ++ (py "\\.\\*\\.\\*|\\*\\.\\*\\.\\*)")

/-- `SGLN_IDPAT_URI_BODY`.  /repo/epcpy/utils/regex.py:92-92 -/
def regex.SGLN_IDPAT_URI_BODY : Str :=
  (py "sgln:") ++ regex.SGLN_GRAI_IDPAT_URI_BODY_MAIN

/-- `GRAI_IDPAT_URI_BODY`.  /repo/epcpy/utils/regex.py:93-93 -/
def regex.GRAI_IDPAT_URI_BODY : Str :=
  (py "grai:") ++ regex.SGLN_GRAI_IDPAT_URI_BODY_MAIN

/-- `GIAI_IDPAT_URI_BODY`.  /repo/epcpy/utils/regex.py:94-94 -/
def regex.GIAI_IDPAT_URI_BODY : Str :=
  (py "giai:(") ++ regex.PADDED_NUMERIC_COMPONENT ++ (py "\\.") ++ regex.GS3A3_COMPONENT ++ (py "|") ++ regex.PADDED_NUMERIC_COMPONENT ++ (py "\\.\\*|\\*\\.\\*)")

/-- `GSRN_IDPAT_URI_BODY`.  /repo/epcpy/utils/regex.py:95-95 -/
def regex.GSRN_IDPAT_URI_BODY : Str :=
  (py "gsrn:(") ++ regex.PADDED_NUMERIC_COMPONENT ++ (py "\\.") ++ regex.PADDED_NUMERIC_COMPONENT ++ (py "|") ++ regex.PADDED_NUMERIC_COMPONENT ++ (py "\\.\\*|\\*\\.\\*)")

/-- `GSRNP_IDPAT_URI_BODY`.  /repo/epcpy/utils/regex.py:96-96 -/
def regex.GSRNP_IDPAT_URI_BODY : Str :=
  (py "gsrnp:(") ++ regex.PADDED_NUMERIC_COMPONENT ++ (py "\\.") ++ regex.PADDED_NUMERIC_COMPONENT ++ (py "|") ++ regex.PADDED_NUMERIC_COMPONENT ++ (py "\\.\\*|\\*\\.\\*)")

/-- `GDTI_IDPAT_URI_BODY`.  /repo/epcpy/utils/regex.py:97-97 -/
def regex.GDTI_IDPAT_URI_BODY : Str :=
  (py "gdti:(") ++ regex.PADDED_NUMERIC_COMPONENT ++ (py "\\.") ++ regex.PADDED_NUMERIC_COMPONENT_OR_EMPTY ++ (py "\\.") ++ regex.GS3A3_COMPONENT ++ (py "|") ++ regex.PADDED_NUMERIC_COMPONENT ++ (py "\\.") ++ regex.PADDED_NUMERIC_COMPONENT_OR_EMPTY ++ (py "\\.\\*|") ++ regex.PADDED_NUMERIC_COMPONENT ++ (py "\\.\\*\\.\\*|\\*\\.\\*\\.\\*)")

/-- `CPI_IDPAT_URI_BODY`.  /repo/epcpy/utils/regex.py:98-98 -/
def regex.CPI_IDPAT_URI_BODY : Str :=
  (py "cpi:(") ++ regex.PADDED_NUMERIC_COMPONENT ++ (py "\\.") ++ regex.CPREF_COMPONENT ++ (py "\\.") ++ regex.NUMERIC_COMPONENT ++ (py "|") ++ regex.PADDED_NUMERIC_COMPONENT ++ (py "\\.") ++ regex.CPREF_COMPONENT ++ (py "\\.\\*|") ++ regex.PADDED_NUMERIC_COMPONENT ++ (py "\\.\\*\\.\\*|\\*\\.\\*\\.\\*)")

/-- `SGCN_IDPAT_URI_BODY`.  /repo/epcpy/utils/regex.py:99-99 -/
def regex.SGCN_IDPAT_URI_BODY : Str :=
  (py "sgcn:(") ++ regex.PADDED_NUMERIC_COMPONENT ++ (py "\\.") ++ regex.PADDED_NUMERIC_COMPONENT_OR_EMPTY ++ (py "\\.") ++ regex.PADDED_NUMERIC_COMPONENT ++ (py "|") ++ regex.PADDED_NUMERIC_COMPONENT ++ (py "\\.") ++ regex.PADDED_NUMERIC_COMPONENT_OR_EMPTY ++ (py "\\.\\*|") ++ regex.PADDED_NUMERIC_COMPONENT ++ (py "\\.\\*\\.\\*|\\*\\.\\*\\.\\*)")

/-- `GINC_IDPAT_URI_BODY`.  /repo/epcpy/utils/regex.py:100-100 -/
def regex.GINC_IDPAT_URI_BODY : Str :=
  (py "ginc:(") ++ regex.PADDED_NUMERIC_COMPONENT ++ (py "\\.") ++ regex.GS3A3_COMPONENT ++ (py "|") ++ regex.PADDED_NUMERIC_COMPONENT ++ (py "\\.\\*|\\*\\.\\*)")

/-- `GSIN_IDPAT_URI_BODY`.  /repo/epcpy/utils/regex.py:101-101 -/
def regex.GSIN_IDPAT_URI_BODY : Str :=
  (py "gsin:(") ++ regex.PADDED_NUMERIC_COMPONENT ++ (py "\\.") ++ regex.PADDED_NUMERIC_COMPONENT ++ (py "|") ++ regex.PADDED_NUMERIC_COMPONENT ++ (py "\\.\\*|\\*\\.\\*)")

/-- `ITIP_IDPAT_URI_BODY`.  /repo/epcpy/utils/regex.py:102-102 -/
def regex.ITIP_IDPAT_URI_BODY : Str :=
  (py "itip:(") ++ regex.FOUR_PADDED_NUMERIC_COMPONENTS ++ (py "\\.") ++ regex.GS3A3_COMPONENT ++ (py "|") ++ regex.FOUR_PADDED_NUMERIC_COMPONENTS ++ (py "\\.\\*|") ++ regex.PADDED_NUMERIC_COMPONENT ++ (py "\\.") ++ regex.PADDED_NUMERIC_COMPONENT ++ (py "\\.\\*\\.\\*\\.\\*|") ++ regex.PADDED_NUMERIC_COMPONENT ++ (py "\\.\\*\\.\\*\\.\\*\\.\\*|\\*\\.\\*\\*\\.\\*\\.\\*)")

/-- `UPUI_IDPAT_URI_BODY`.  /repo/epcpy/utils/regex.py:103-103 -/
def regex.UPUI_IDPAT_URI_BODY : Str :=
  (py "upui:(") ++ regex.PADDED_NUMERIC_COMPONENT ++ (py "\\.") ++ regex.PADDED_NUMERIC_COMPONENT ++ (py "\\.") ++ regex.GS3A3_COMPONENT ++ (py "|") ++ regex.PADDED_NUMERIC_COMPONENT ++ (py "\\.") ++ regex.PADDED_NUMERIC_COMPONENT ++ (py "\\.\\*|") ++ regex.PADDED_NUMERIC_COMPONENT ++ (py "\\.\\*\\.\\*|\\*\\.\\*\\.\\*)")

/-- `PGLN_IDPAT_URI_BODY`.  /repo/epcpy/utils/regex.py:104-104 -/
def regex.PGLN_IDPAT_URI_BODY : Str :=
  (py "pgln:(") ++ regex.PADDED_NUMERIC_COMPONENT ++ (py "\\.") ++ regex.PADDED_NUMERIC_COMPONENT_OR_EMPTY ++ (py "|") ++ regex.PADDED_NUMERIC_COMPONENT ++ (py "\\.\\*|\\*\\.\\*)")

/-- `GID_IDPAT_URI_BODY`.  /repo/epcpy/utils/regex.py:105-105 -/
def regex.GID_IDPAT_URI_BODY : Str :=
  (py "gid:(") ++ regex.NUMERIC_COMPONENT ++ (py "\\.") ++ regex.NUMERIC_COMPONENT ++ (py "\\.") ++ regex.NUMERIC_COMPONENT ++ (py "|") ++ regex.NUMERIC_COMPONENT ++ (py "\\.") ++ regex.NUMERIC_COMPONENT ++ (py "\\.\\*|") ++ regex.NUMERIC_COMPONENT ++ (py "\\.\\*\\.\\*|\\*\\.\\*\\.\\*)")

/-- `USDOD_IDPAT_URI_BODY`.  /repo/epcpy/utils/regex.py:106-106 -/
def regex.USDOD_IDPAT_URI_BODY : Str :=
  (py "usdod:(") ++ regex.CAGE_CODE_OR_DODAAC ++ (py "\\.") ++ regex.NUMERIC_COMPONENT ++ (py "|") ++ regex.CAGE_CODE_OR_DODAAC ++ (py "\\.\\*|\\*\\.\\*)")

/-- `ADI_IDPAT_URI_BODY`.  /repo/epcpy/utils/regex.py:107-107 -/
def regex.ADI_IDPAT_URI_BODY : Str :=
  (py "adi:(") ++ regex.CAGE_CODE_OR_DODAAC ++ (py "\\.") ++ regex.ADI_CHAR ++ (py "*\\.(%23)?") ++ regex.ADI_CHAR ++ (py "+|") ++ regex.CAGE_CODE_OR_DODAAC ++ (py "\\.") ++ regex.ADI_CHAR ++ (py "*\\.\\*|") ++ regex.CAGE_CODE_OR_DODAAC ++ (py "\\.\\*\\.\\*|\\*\\.\\*\\.\\*)")

/-- `IDPAT_BODY`.  /repo/epcpy/utils/regex.py:109-115 -/
def regex.IDPAT_BODY : Str :=
  (py "(") ++ regex.SGTIN_IDPAT_URI_BODY ++ (py "|") ++ regex.SSCC_IDPAT_URI_BODY ++ (py "|") ++ regex.SGLN_IDPAT_URI_BODY ++ (py "|") ++ regex.GRAI_IDPAT_URI_BODY ++ (py "|") ++ regex.GIAI_IDPAT_URI_BODY ++ (py "|") ++ regex.GSRN_IDPAT_URI_BODY ++ (py "|") ++ regex.GSRNP_IDPAT_URI_BODY ++ (py "|") ++ regex.GDTI_IDPAT_URI_BODY ++ (py "|") ++ regex.CPI_IDPAT_URI_BODY ++ (py "|") ++ regex.SGCN_IDPAT_URI_BODY ++ (py "|") ++ regex.GINC_IDPAT_URI_BODY ++ (py "|") ++ regex.GSIN_IDPAT_URI_BODY ++ (py "|") ++ regex.ITIP_IDPAT_URI_BODY ++ (py "|") ++ regex.UPUI_IDPAT_URI_BODY ++ (py "|") ++ regex.PGLN_IDPAT_URI_BODY ++ (py "|") ++ regex.GID_IDPAT_URI_BODY ++ (py "|") ++ regex.USDOD_IDPAT_URI_BODY ++ (py "|") ++ regex.ADI_IDPAT_URI_BODY ++ (py ")")

/-- `IDPAT_URI`.  /repo/epcpy/utils/regex.py:116-116 -/
def regex.IDPAT_URI : Str :=
  (py "urn:epc:idpat:") ++ regex.IDPAT_BODY

/-- `SGTIN_TAG_URI_BODY`.  /repo/epcpy/utils/regex.py:119-119 -/
def regex.SGTIN_TAG_URI_BODY : Str :=
  (py "(sgtin-96|sgtin-198):") ++ regex.NUMERIC_COMPONENT ++ (py "\\.") ++ regex.SGTIN_URI_BODY

/-- `SSCC_TAG_URI_BODY`.  /repo/epcpy/utils/regex.py:120-120 -/
def regex.SSCC_TAG_URI_BODY : Str :=
  (py "sscc-96:") ++ regex.NUMERIC_COMPONENT ++ (py "\\.") ++ regex.SSCC_URI_BODY

/-- `SGLN_TAG_URI_BODY`.  /repo/epcpy/utils/regex.py:121-121 -/
def regex.SGLN_TAG_URI_BODY : Str :=
  (py "(sgln-96|sgln-195):") ++ regex.NUMERIC_COMPONENT ++ (py "\\.") ++ regex.SGLN_URI_BODY

/-- `GRAI_TAG_URI_BODY`.  /repo/epcpy/utils/regex.py:122-122 -/
def regex.GRAI_TAG_URI_BODY : Str :=
  (py "(grai-96|grai-170):") ++ regex.NUMERIC_COMPONENT ++ (py "\\.") ++ regex.GRAI_URI_BODY

/-- `GIAI_TAG_URI_BODY`.  /repo/epcpy/utils/regex.py:123-123 -/
def regex.GIAI_TAG_URI_BODY : Str :=
  (py "(giai-96|giai-202):") ++ regex.NUMERIC_COMPONENT ++ (py "\\.") ++ regex.GIAI_URI_BODY

/-- `GSRN_TAG_URI_BODY`.  /repo/epcpy/utils/regex.py:124-124 -/
def regex.GSRN_TAG_URI_BODY : Str :=
  (py "gsrn-96:") ++ regex.NUMERIC_COMPONENT ++ (py "\\.") ++ regex.GSRN_URI_BODY

/-- `GSRNP_TAG_URI_BODY`.  /repo/epcpy/utils/regex.py:125-125 -/
def regex.GSRNP_TAG_URI_BODY : Str :=
  (py "gsrnp-96:") ++ regex.NUMERIC_COMPONENT ++ (py "\\.") ++ regex.GSRNP_URI_BODY

/-- `GDTI_TAG_URI_BODY`.  /repo/epcpy/utils/regex.py:126-126 -/
def regex.GDTI_TAG_URI_BODY : Str :=
  (py "(gdti-96|gdti-174):") ++ regex.NUMERIC_COMPONENT ++ (py "\\.") ++ regex.GDTI_URI_BODY

/-- `CPI_TAG_URI_BODY`.  /repo/epcpy/utils/regex.py:127-127 -/
def regex.CPI_TAG_URI_BODY : Str :=
  (py "(cpi-96|cpi-var):") ++ regex.NUMERIC_COMPONENT ++ (py "\\.") ++ regex.CPI_URI_BODY

/-- `SGCN_TAG_URI_BODY`.  /repo/epcpy/utils/regex.py:128-128 -/
def regex.SGCN_TAG_URI_BODY : Str :=
  (py "sgcn-96:") ++ regex.NUMERIC_COMPONENT ++ (py "\\.") ++ regex.SGCN_URI_BODY

/-- `ITIP_TAG_URI_BODY`.  /repo/epcpy/utils/regex.py:129-129 -/
def regex.ITIP_TAG_URI_BODY : Str :=
  (py "(itip-110|itip-212):") ++ regex.NUMERIC_COMPONENT ++ (py "\\.") ++ regex.ITIP_URI_BODY

/-- `GID_TAG_URI_BODY`.  /repo/epcpy/utils/regex.py:130-130 -/
def regex.GID_TAG_URI_BODY : Str :=
  (py "gid-96:") ++ regex.GID_URI_BODY

/-- `USDOD_TAG_URI_BODY`.  /repo/epcpy/utils/regex.py:131-131 -/
def regex.USDOD_TAG_URI_BODY : Str :=
  (py "usdod-96:") ++ regex.NUMERIC_COMPONENT ++ (py "\\.") ++ regex.USDOD_URI_BODY

/-- `ADI_TAG_URI_BODY`.  /repo/epcpy/utils/regex.py:132-132 -/
def regex.ADI_TAG_URI_BODY : Str :=
  (py "adi-var:") ++ regex.NUMERIC_COMPONENT ++ (py "\\.") ++ regex.ADI_URI_BODY

/-- `TAG_URI_BODY`.  /repo/epcpy/utils/regex.py:134-139 -/
def regex.TAG_URI_BODY : Str :=
  (py "(") ++ regex.SGTIN_TAG_URI_BODY ++ (py "|") ++ regex.SSCC_TAG_URI_BODY ++ (py "|") ++ regex.SGLN_TAG_URI_BODY ++ (py "|") ++ regex.GRAI_TAG_URI_BODY ++ (py "|") ++ regex.GIAI_TAG_URI_BODY ++ (py "|") ++ regex.GSRN_TAG_URI_BODY ++ (py "|") ++ regex.GSRNP_TAG_URI_BODY ++ (py "|") ++ regex.GDTI_TAG_URI_BODY ++ (py "|") ++ regex.CPI_TAG_URI_BODY ++ (py "|") ++ regex.SGCN_TAG_URI_BODY ++ (py "|") ++ regex.ITIP_TAG_URI_BODY ++ (py "|") ++ regex.GID_TAG_URI_BODY ++ (py "|") ++ regex.USDOD_TAG_URI_BODY ++ (py "|") ++ regex.ADI_TAG_URI_BODY ++ (py ")")

/-- `TAG_URI`.  /repo/epcpy/utils/regex.py:140-140 -/
def regex.TAG_URI : Str :=
  (py "urn:epc:tag:") ++ regex.TAG_URI_BODY

/-- `SGTIN_GS1_ELEMENT_STRING`.  /repo/epcpy/utils/regex.py:143-143 -/
def regex.SGTIN_GS1_ELEMENT_STRING : Str :=
  (py "\\(01\\)") ++ regex.DIGIT ++ (py "{14}\\(21\\)") ++ regex.GS1_ELEM_CHARS ++ (py "{1,20}")

/-- `SSCC_GS1_ELEMENT_STRING`.  /repo/epcpy/utils/regex.py:144-144 -/
def regex.SSCC_GS1_ELEMENT_STRING : Str :=
  (py "\\(00\\)") ++ regex.DIGIT ++ (py "{18}")

/-- `SGLN_GS1_ELEMENT_STRING`.  /repo/epcpy/utils/regex.py:145-145 -/
def regex.SGLN_GS1_ELEMENT_STRING : Str :=
  (py "\\(414\\)") ++ regex.DIGIT ++ (py "{13}\\(254\\)") ++ regex.GS1_ELEM_CHARS ++ (py "{1,20}")

/-- `GRAI_GS1_ELEMENT_STRING`.  /repo/epcpy/utils/regex.py:146-146 -/
def regex.GRAI_GS1_ELEMENT_STRING : Str :=
  (py "\\(8003\\)0") ++ regex.DIGIT ++ (py "{13}") ++ regex.GS1_ELEM_CHARS ++ (py "{1,16}")

/-- `GIAI_GS1_ELEMENT_STRING`.  /repo/epcpy/utils/regex.py:147-147 -/
def regex.GIAI_GS1_ELEMENT_STRING : Str :=
  (py "\\(8004\\)") ++ regex.DIGIT ++ (py "{6,12}") ++ regex.GS1_ELEM_CHARS ++ (py "{1,24}")

/-- `GSRN_GS1_ELEMENT_STRING`.  /repo/epcpy/utils/regex.py:148-148 -/
def regex.GSRN_GS1_ELEMENT_STRING : Str :=
  (py "\\(8018\\)") ++ regex.DIGIT ++ (py "{18}")

/-- `GSRNP_GS1_ELEMENT_STRING`.  /repo/epcpy/utils/regex.py:149-149 -/
def regex.GSRNP_GS1_ELEMENT_STRING : Str :=
  (py "\\(8017\\)") ++ regex.DIGIT ++ (py "{18}")

/-- `GDTI_GS1_ELEMENT_STRING`.  /repo/epcpy/utils/regex.py:150-150 -/
def regex.GDTI_GS1_ELEMENT_STRING : Str :=
  (py "\\(253\\)") ++ regex.DIGIT ++ (py "{13}") ++ regex.GS1_ELEM_CHARS ++ (py "{1,17}")

/-- `CPI_GS1_ELEMENT_STRING`.  /repo/epcpy/utils/regex.py:151-153 -/
def regex.CPI_GS1_ELEMENT_STRING : Str :=
  (py "\\(8010\\)") ++ regex.DIGIT ++ (py "{6,12}") ++ regex.GS1_ELEM_CHARS_CPI ++ (py "{,24}\\(8011\\)") ++ regex.DIGIT ++ (py "{1,12}")

/-- `SGCN_GS1_ELEMENT_STRING`.  /repo/epcpy/utils/regex.py:154-154 -/
def regex.SGCN_GS1_ELEMENT_STRING : Str :=
  (py "\\(255\\)") ++ regex.DIGIT ++ (py "{13}") ++ regex.GS1_ELEM_CHARS ++ (py "{1,12}")

/-- `GINC_GS1_ELEMENT_STRING`.  /repo/epcpy/utils/regex.py:155-155 -/
def regex.GINC_GS1_ELEMENT_STRING : Str :=
  (py "\\(401\\)") ++ regex.DIGIT ++ (py "{6,12}") ++ regex.GS1_ELEM_CHARS ++ (py "{1,24}")

/-- `GSIN_GS1_ELEMENT_STRING`.  /repo/epcpy/utils/regex.py:156-156 -/
def regex.GSIN_GS1_ELEMENT_STRING : Str :=
  (py "\\(402\\)") ++ regex.DIGIT ++ (py "{17}")

/-- `ITIP_GS1_ELEMENT_STRING`.  /repo/epcpy/utils/regex.py:157-157 -/
def regex.ITIP_GS1_ELEMENT_STRING : Str :=
  (py "\\(8006\\)") ++ regex.DIGIT ++ (py "{18}\\(21\\)") ++ regex.GS1_ELEM_CHARS ++ (py "{1,20}")

/-- `UPUI_GS1_ELEMENT_STRING`.  /repo/epcpy/utils/regex.py:158-158 -/
def regex.UPUI_GS1_ELEMENT_STRING : Str :=
  (py "\\(01\\)") ++ regex.DIGIT ++ (py "{14}\\(235\\)") ++ regex.GS1_ELEM_CHARS ++ (py "{1,28}")

/-- `PGLN_GS1_ELEMENT_STRING`.  /repo/epcpy/utils/regex.py:159-159 -/
def regex.PGLN_GS1_ELEMENT_STRING : Str :=
  (py "\\(417\\)") ++ regex.DIGIT ++ (py "{13}")

/-- `LGTIN_GS1_ELEMENT_STRING`.  /repo/epcpy/utils/regex.py:160-160 -/
def regex.LGTIN_GS1_ELEMENT_STRING : Str :=
  (py "\\(01\\)") ++ regex.DIGIT ++ (py "{14}\\(10\\)") ++ regex.GS1_ELEM_CHARS ++ (py "{1,20}")

/-- `GS1_ELEMENT_STRING`.  /repo/epcpy/utils/regex.py:162-169 -/
def regex.GS1_ELEMENT_STRING : Str :=
  (py "(") ++ regex.SGTIN_GS1_ELEMENT_STRING ++ (py "|") ++ regex.SSCC_GS1_ELEMENT_STRING ++ (py "|") ++ regex.SGLN_GS1_ELEMENT_STRING ++ (py "|") ++ regex.GRAI_GS1_ELEMENT_STRING ++ (py "|") ++ regex.GIAI_GS1_ELEMENT_STRING ++ (py "|") ++ regex.GSRN_GS1_ELEMENT_STRING ++ (py "|") ++ regex.GSRNP_GS1_ELEMENT_STRING ++ (py "|") ++ regex.GDTI_GS1_ELEMENT_STRING ++ (py "|") ++ regex.CPI_GS1_ELEMENT_STRING ++ (py "|") ++ regex.SGCN_GS1_ELEMENT_STRING ++ (py "|") ++ regex.GINC_GS1_ELEMENT_STRING ++ (py "|") ++ regex.GSIN_GS1_ELEMENT_STRING ++ (py "|") ++ regex.ITIP_GS1_ELEMENT_STRING ++ (py "|") ++ regex.UPUI_GS1_ELEMENT_STRING ++ (py "|") ++ regex.PGLN_GS1_ELEMENT_STRING ++ (py "|") ++ regex.LGTIN_GS1_ELEMENT_STRING ++ (py ")")

/-- All constants of the module. -/
def regex.constants : List Str :=
  [regex.CPREF_COMPONENT,
   regex.NUMERIC_COMPONENT,
   regex.GS3A3_CHAR,
   regex.GS3A3_COMPONENT,
   regex.PADDED_NUMERIC_COMPONENT,
   regex.PADDED_NUMERIC_COMPONENT_OR_EMPTY,
   regex.VERIFY_GS3A3_CHARS,
   regex.GS1_ELEM_CHARS,
   regex.GS1_ELEM_CHARS_CPI,
   regex.DIGIT,
   regex.FOUR_PADDED_NUMERIC_COMPONENTS,
   regex.SGTIN_URI_BODY,
   regex.SGTIN_URI,
   regex.SSCC_URI_BODY,
   regex.SSCC_URI,
   regex.SGLN_URI_BODY,
   regex.SGLN_URI,
   regex.GRAI_URI_BODY,
   regex.GRAI_URI,
   regex.GIAI_URI_BODY,
   regex.GIAI_URI,
   regex.GSRN_URI_BODY,
   regex.GSRN_URI,
   regex.GSRNP_URI_BODY,
   regex.GSRNP_URI,
   regex.GDTI_URI_BODY,
   regex.GDTI_URI,
   regex.CPI_URI_BODY,
   regex.CPI_URI,
   regex.SGCN_URI_BODY,
   regex.SGCN_URI,
   regex.GINC_URI_BODY,
   regex.GINC_URI,
   regex.GSIN_URI_BODY,
   regex.GSIN_URI,
   regex.ITIP_URI_BODY,
   regex.ITIP_URI,
   regex.UPUI_URI_BODY,
   regex.UPUI_URI,
   regex.PGLN_URI_BODY,
   regex.PGLN_URI,
   regex.GID_URI_BODY,
   regex.GID_URI,
   regex.CAGE_CODE_OR_DODAAC,
   regex.USDOD_URI_BODY,
   regex.USDOD_URI,
   regex.ADI_CHAR,
   regex.ADI_URI_BODY,
   regex.ADI_URI,
   regex.BIC_URI_BODY,
   regex.BIC_URI,
   regex.IMOVN_URI_BODY,
   regex.IMOVN_URI,
   regex.LGTIN_CLASS,
   regex.EPC_URI,
   regex.SGTIN_IDPAT_URI_BODY,
   regex.SSCC_IDPAT_URI_BODY,
   regex.SGLN_GRAI_IDPAT_URI_BODY_MAIN,
   regex.SGLN_IDPAT_URI_BODY,
   regex.GRAI_IDPAT_URI_BODY,
   regex.GIAI_IDPAT_URI_BODY,
   regex.GSRN_IDPAT_URI_BODY,
   regex.GSRNP_IDPAT_URI_BODY,
   regex.GDTI_IDPAT_URI_BODY,
   regex.CPI_IDPAT_URI_BODY,
   regex.SGCN_IDPAT_URI_BODY,
   regex.GINC_IDPAT_URI_BODY,
   regex.GSIN_IDPAT_URI_BODY,
   regex.ITIP_IDPAT_URI_BODY,
   regex.UPUI_IDPAT_URI_BODY,
   regex.PGLN_IDPAT_URI_BODY,
   regex.GID_IDPAT_URI_BODY,
   regex.USDOD_IDPAT_URI_BODY,
   regex.ADI_IDPAT_URI_BODY,
   regex.IDPAT_BODY,
   regex.IDPAT_URI,
   regex.SGTIN_TAG_URI_BODY,
   regex.SSCC_TAG_URI_BODY,
   regex.SGLN_TAG_URI_BODY,
   regex.GRAI_TAG_URI_BODY,
   regex.GIAI_TAG_URI_BODY,
   regex.GSRN_TAG_URI_BODY,
   regex.GSRNP_TAG_URI_BODY,
   regex.GDTI_TAG_URI_BODY,
   regex.CPI_TAG_URI_BODY,
   regex.SGCN_TAG_URI_BODY,
   regex.ITIP_TAG_URI_BODY,
   regex.GID_TAG_URI_BODY,
   regex.USDOD_TAG_URI_BODY,
   regex.ADI_TAG_URI_BODY,
   regex.TAG_URI_BODY,
   regex.TAG_URI,
   regex.SGTIN_GS1_ELEMENT_STRING,
   regex.SSCC_GS1_ELEMENT_STRING,
   regex.SGLN_GS1_ELEMENT_STRING,
   regex.GRAI_GS1_ELEMENT_STRING,
   regex.GIAI_GS1_ELEMENT_STRING,
   regex.GSRN_GS1_ELEMENT_STRING,
   regex.GSRNP_GS1_ELEMENT_STRING,
   regex.GDTI_GS1_ELEMENT_STRING,
   regex.CPI_GS1_ELEMENT_STRING,
   regex.SGCN_GS1_ELEMENT_STRING,
   regex.GINC_GS1_ELEMENT_STRING,
   regex.GSIN_GS1_ELEMENT_STRING,
   regex.ITIP_GS1_ELEMENT_STRING,
   regex.UPUI_GS1_ELEMENT_STRING,
   regex.PGLN_GS1_ELEMENT_STRING,
   regex.LGTIN_GS1_ELEMENT_STRING,
   regex.GS1_ELEMENT_STRING]

end Epc.Src
