/-
The examples of /repo/README.md, executed from the source (`Spec/Source`).  Tests, not proofs.  The README leaves out the
padding of the base64 text, and `hex_to_epc`, which it imports, does not exist (the function is called `hex_to_tag_encodable`).
-/
import Verif.Lemmas.Source
import Verif.Spec.Signature

namespace Epc.Src

private def sgtin : M Val := invoke (.cls .SGTIN) .from_epc_uri [.str (py "urn:epc:id:sgtin:00000950.01093.Serial")] []
private def sgtin198 : M Val := read (.cls .SGTIN) .BinaryCodingScheme >>= fun b => read b .SGTIN_198
private def posItem : M Val := globalVal (level 24) .sgtin .SGTINFilterValue >>= fun e => read e .POS_ITEM
private def gtin8 : M Val := globalVal (level 24) .sgtin .GTIN_TYPE >>= fun e => read e .GTIN8
private def tagged (m : Nm) : M Val := do
  let o ← sgtin
  let s ← sgtin198
  let f ← posItem
  invoke o m [] [(.binary_coding_scheme, s), (.filter_value, f)]
private def uriOf (r : M Val) : M Val := r >>= fun o => read o .epc_uri

example : returnsStr (uriOf sgtin) (py "urn:epc:id:sgtin:00000950.01093.Serial") := by decide +kernel
example : returnsStr (uriOf (construct .SGTIN [.str (py "urn:epc:id:sgtin:00000950.01093.Serial")])) (py "urn:epc:id:sgtin:00000950.01093.Serial") := by decide +kernel
example : returnsStr (sgtin >>= fun o => invoke o .gs1_element_string [] []) (py "(01)00000095010939(21)Serial") := by decide +kernel
example : returnsStr (sgtin >>= fun o => invoke o .gs1_key [] []) (py "00000095010939") := by decide +kernel
example : returnsStr (sgtin >>= fun o => gtin8 >>= fun g => invoke o .gs1_key [] [(.gtin_type, g)]) (py "95010939") := by decide +kernel
example : returnsStr (uriOf (invoke (.cls .SGTIN) .from_gs1_element_string [.str (py "(01)00000095010939(21)Serial")] [(.company_prefix_length, .int 8)]))
    (py "urn:epc:id:sgtin:00000950.01093.Serial") := by decide +kernel
example : returnsStr (tagged .tag_uri) (py "urn:epc:tag:sgtin-198:1.00000950.01093.Serial") := by decide +kernel
example : returnsStr (tagged .hex) (py "36300001DB011169E5E5A70EC000000000000000000000000000") := by decide +kernel
example : returnsStr (tagged .base64) (py "NjAAAdsBEWnl5acOwAAAAAAAAAAAAAAAAAA=") := by decide +kernel
example : (match tagged .binary with | .ok (.str b) => b.take 30 == py "001101100011000000000000000000" | _ => false) = true := by decide +kernel
example : returnsStr (uriOf (invoke (.cls .SGTIN) .from_hex [.str (py "36300001DB011169E5E5A70EC000000000000000000000000000")] []))
    (py "urn:epc:id:sgtin:00000950.01093.Serial") := by decide +kernel
example : returnsStr (uriOf (function .hex_to_tag_encodable [.str (py "36300001DB011169E5E5A70EC000000000000000000000000000")] []))
    (py "urn:epc:id:sgtin:00000950.01093.Serial") := by decide +kernel
example : returnsStr (function .get_gs1_key [.str (py "36300001DB011169E5E5A70EC000000000000000000000000000")] []) (py "00000095010939") := by decide +kernel
example : returnsStr (function .get_gs1_key [.str (py "urn:epc:tag:sgtin-198:1.00000950.01093.Serial")] []) (py "00000095010939") := by decide +kernel
example : returnsStr (function .get_gs1_key [.str (py "urn:epc:idpat:sgtin:00000950.01093.*")] []) (py "00000095010939") := by decide +kernel
example : raises (function .get_gs1_key [.str (py "urn:epc:idpat:sgtin:00000950.*.*")] []) (.err .convert) := by decide +kernel

/-- The table of the schemes: GS1 element, GS1 keyed, tag encodable. -/
private def table : List (Cl × Bool × Bool × Bool) :=
  [(.ADI, false, false, true), (.BIC, false, false, false), (.CPI, true, false, true),
    (.GDTI, true, true, true), (.GIAI, true, true, true), (.GID, false, false, true),
    (.GINC, true, true, false), (.GRAI, true, true, true), (.GSIN, true, true, false),
    (.GSRN, true, true, true), (.GSRNP, true, true, true), (.IMOVN, false, false, false),
    (.ITIP, true, false, true), (.LGTIN, true, true, false), (.PGLN, true, true, false),
    (.SGCN, true, true, true), (.SGLN, true, true, true), (.SGTIN, true, true, true),
    (.SSCC, true, true, true), (.UPUI, true, false, false), (.USDOD, false, false, true)]

example : ∀ r ∈ table, (clsMro r.1).contains .EPCScheme = true ∧ (clsMro r.1).contains .GS1Element = r.2.1 ∧ (clsMro r.1).contains .GS1Keyed = r.2.2.1 ∧
    (clsMro r.1).contains .TagEncodable = r.2.2.2 := by decide +kernel

end Epc.Src
