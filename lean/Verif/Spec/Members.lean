/-
The members of the enumerations a user names in a call: `SGTIN.BinaryCodingScheme.SGTIN_96`, `SGTINFilterValue.POS_ITEM`, `GTIN_TYPE.GTIN13`, with
the names, headers and numbers of the GS1 EPC Tag Data Standard (sections 10 and 14).  This file does not use the model of the other claims.
-/
import Verif.Spec.Program

namespace Epc.Src
open Spec

/-- `M.E.N`: the member `N` of the enumeration `E` of the module `M`. -/
def moduleMember (m : Mod) (e n : Nm) : M Val := globalVal (level 24) m e >>= fun c => read c n

/-- `C.BinaryCodingScheme.N` -/
def codingMember (c : Cl) (n : Nm) : M Val := read (.cls c) .BinaryCodingScheme >>= fun e => read e n

/-- The lengths of GTINs. -/
def gtinMembers : List (Nm × Nat) := [(.GTIN8, 8), (.GTIN12, 12), (.GTIN13, 13), (.GTIN14, 14)]

/-- The coding schemes: name of the member, name in tag URIs, header. -/
def codingNames : Cls → List (Nm × Str × Str)
  | .sgtin => [(.SGTIN_96, py "sgtin-96", py "00110000"), (.SGTIN_198, py "sgtin-198", py "00110110")]
  | .sscc => [(.SSCC_96, py "sscc-96", py "00110001")]
  | .sgln => [(.SGLN_96, py "sgln-96", py "00110010"), (.SGLN_195, py "sgln-195", py "00111001")]
  | .grai => [(.GRAI_96, py "grai-96", py "00110011"), (.GRAI_170, py "grai-170", py "00110111")]
  | .giai => [(.GIAI_96, py "giai-96", py "00110100"), (.GIAI_202, py "giai-202", py "00111000")]
  | .gsrn => [(.GSRN_96, py "gsrn-96", py "00101101")]
  | .gsrnp => [(.GSRNP_96, py "gsrnp-96", py "00101110")]
  | .gdti => [(.GDTI_96, py "gdti-96", py "00101100"), (.GDTI_174, py "gdti-174", py "00111110")]
  | .sgcn => [(.SGCN_96, py "sgcn-96", py "00111111")]
  | .cpi => [(.CPI_96, py "cpi-96", py "00111100"), (.CPI_VAR, py "cpi-var", py "00111101")]
  | .itip => [(.ITIP_110, py "itip-110", py "01000000"), (.ITIP_212, py "itip-212", py "01000001")]
  | .usdod => [(.USDOD_96, py "usdod-96", py "00101111")]
  | .adi => [(.ADI_VAR, py "adi-var", py "00111011")]
  | _ => []

/-- The module and the name of the enumeration of filter values. -/
def filterHome : Cls → Option (Mod × Nm)
  | .sgtin => some (.sgtin, .SGTINFilterValue)
  | .sscc => some (.sscc, .SSCCFilterValue)
  | .sgln => some (.sgln, .SGLNFilterValue)
  | .grai => some (.grai, .GRAIFilterValue)
  | .giai => some (.giai, .GIAIFilterValue)
  | .gsrn => some (.gsrn, .GSRNFilterValue)
  | .gsrnp => some (.gsrnp, .GSRNPFilterValue)
  | .gdti => some (.gdti, .GDTIFilterValue)
  | .sgcn => some (.sgcn, .SGCNFilterValue)
  | .cpi => some (.cpi, .CPIFilterValue)
  | .itip => some (.itip, .ITIPFilterValue)
  | .usdod => some (.usdod, .USDODFilterValue)
  | .adi => some (.adi, .ADIFilterValue)
  | _ => none

/-- The filter values by name; the number of a filter value is its place in the list. -/
def filterNames : Cls → List Nm
  | .sgtin => [.ALL_OTHERS, .POS_ITEM, .FULL_CASE, .RESERVED_3, .INNER_PACK, .RESERVED_5, .UNIT_LOAD, .COMPONENT]
  | .sscc => [.ALL_OTHERS, .RESERVED_1, .FULL_CASE, .RESERVED_3, .RESERVED_4, .RESERVED_5, .UNIT_LOAD, .RESERVED_7]
  | .sgln => [.ALL_OTHERS, .RESERVED_1, .RESERVED_2, .RESERVED_3, .RESERVED_4, .RESERVED_5, .RESERVED_6, .RESERVED_7]
  | .grai => [.ALL_OTHERS, .RESERVED_1, .RESERVED_2, .RESERVED_3, .RESERVED_4, .RESERVED_5, .RESERVED_6, .RESERVED_7]
  | .giai => [.ALL_OTHERS, .RAIL_VEHICLE, .RESERVED_2, .RESERVED_3, .RESERVED_4, .RESERVED_5, .RESERVED_6, .RESERVED_7]
  | .gsrn => [.ALL_OTHERS, .RESERVED_1, .RESERVED_2, .RESERVED_3, .RESERVED_4, .RESERVED_5, .RESERVED_6, .RESERVED_7]
  | .gsrnp => [.ALL_OTHERS, .RESERVED_1, .RESERVED_2, .RESERVED_3, .RESERVED_4, .RESERVED_5, .RESERVED_6, .RESERVED_7]
  | .gdti => [.ALL_OTHERS, .TRAVEL_DOCUMENT, .RESERVED_2, .RESERVED_3, .RESERVED_4, .RESERVED_5, .RESERVED_6, .RESERVED_7]
  | .sgcn => [.ALL_OTHERS, .RESERVED_1, .RESERVED_2, .RESERVED_3, .RESERVED_4, .RESERVED_5, .RESERVED_6, .RESERVED_7]
  | .cpi => [.ALL_OTHERS, .RESERVED_1, .RESERVED_2, .RESERVED_3, .RESERVED_4, .RESERVED_5, .RESERVED_6, .RESERVED_7]
  | .itip => [.ALL_OTHERS, .RESERVED_1, .RESERVED_2, .RESERVED_3, .RESERVED_4, .RESERVED_5, .RESERVED_6, .RESERVED_7]
  | .usdod =>
      [.PALLET, .CASE, .UNIT_PACK, .RESERVED_3, .RESERVED_4, .RESERVED_5, .RESERVED_6, .RESERVED_7, .RESERVED_8, .RESERVED_9, .RESERVED_10, .RESERVED_11,
      .RESERVED_12, .RESERVED_13, .RESERVED_14, .RESERVED_15]
  | .adi =>
      [.ALL_OTHERS, .ITEM_OTHER, .CARTON, .RESERVED_3, .RESERVED_4, .RESERVED_5, .PALLET, .RESERVED_7, .SEAT_CUSHIONS, .SEAT_COVERS, .SEAT_BELTS, .GALLEY,
      .UNIT_LOAD_DEVICES, .AIRCRAFT_SECURITY_ITEMS, .LIFE_VESTS, .OXYGEN_GENERATOR, .ENGINE_COMPONENTS, .AVIONICS, .EXPERIMENTAL_EQUIPMENT,
      .OTHER_EMERGENCY_EQUIPMENT, .OTHER_ROTABLES, .OTHER_REPAIRABLE, .OTHER_CABIN_INTERIOR, .OTHER_REPAIR, .PASSENGER_SEATS, .IFE_SYSTEMS, .RESERVED_26,
      .RESERVED_27, .RESERVED_28, .RESERVED_29, .RESERVED_30, .RESERVED_31, .RESERVED_32, .RESERVED_33, .RESERVED_34, .RESERVED_35, .RESERVED_36,
      .RESERVED_37, .RESERVED_38, .RESERVED_39, .RESERVED_40, .RESERVED_41, .RESERVED_42, .RESERVED_43, .RESERVED_44, .RESERVED_45, .RESERVED_46,
      .RESERVED_47, .RESERVED_48, .RESERVED_49, .RESERVED_50, .RESERVED_51, .RESERVED_52, .RESERVED_53, .RESERVED_54, .RESERVED_55, .LOCATION_IDENTIFIER,
      .DOCUMENTATION, .TOOLS, .GROUND_SUPPORT_EQUIPMENT, .OTHER_NON_FLYABLE_EQUIPMENT, .RESERVED_61, .RESERVED_62, .RESERVED_63]
  | _ => []

/-- The number of bits of the filter value. -/
def filterWidth : Cls → Nat
  | .usdod => 4
  | .adi => 6
  | _ => 3

/-- What a tag URI takes over from the identity URI: everything after the fourth colon, for a GIAI only up to the next colon. -/
def fieldsOf : Cls → Str → Str
  | .giai, u => (afterColons 4 u).takeWhile (· ≠ ':')
  | _, u => afterColons 4 u

/-- A tag written with the coding scheme `s` and the filter value `f`: `name` and `k` stand in the tag URI, followed by `fields`; the bits start with `header`,
and `k` is the number in the next `w` bits. -/
def NamedTag (o s f : Val) (name header fields : Str) (w k : Nat) : Prop :=
  (∀ t, invoke o .tag_uri [] [(.binary_coding_scheme, s), (.filter_value, f)] = .ok (.str t) →
    t = py "urn:epc:tag:" ++ name ++ ':' :: (natStr k ++ '.' :: fields)) ∧
  ∀ b, invoke o .binary [] [(.binary_coding_scheme, s), (.filter_value, f)] = .ok (.str b) →
    b.take 8 = header ∧ bitsNumber ((b.drop 8).take w) = k

end Epc.Src
