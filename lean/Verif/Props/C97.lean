/-
C97: a program that sends an EPC on in any notations, executed from the source.

Nothing in the statements refers to the model of the other claims: objects are made by executing the constructors of /repo/epcpy,
written by executing their methods and read by executing the functions of /repo/epcpy/utils/parsers.py (`Spec/Program`).
-/
import Verif.Lemmas.Program
import Verif.Lemmas.PortableUri
import Verif.Props.C78
import Verif.Lemmas.Made
set_option linter.unusedVariables false

namespace Epc.Src
open Spec Grammar

theorem constructed {c : Cls} {u : Str} {o : Val} (h : construct (clOf c) [.str u] = .ok o) : ∃ x, c.new u = .ok x ∧ o = objScheme x := by
  rw [(C91_constructors c u).1] at h
  cases hx : c.new u with
  | error e => rw [hx] at h; cases h
  | ok x => rw [hx] at h; cases h; exact ⟨x, rfl, rfl⟩

/-- An object arrives unchanged, whatever the chain, if and only if its URI meets the conditions. -/
theorem C97_chain (c : Cls) (u : Str) (o : Val) (h : construct (clOf c) [.str u] = .ok o) :
    (∀ r, Chain o r → r = .ok o) ↔ PortableUri c u := by
  obtain ⟨x, hx, rfl⟩ := constructed h
  rw [chain_iff, sentOn_iff hx, ← relay_iff, C78_all c u x hx, portable_iff hx]

/-- Every object gives back the text it was made from, and the general parser makes the same object of it. -/
theorem C97_uri (c : Cls) (u : Str) (o : Val) (h : construct (clOf c) [.str u] = .ok o) :
    read o .epc_uri = .ok (.str u) ∧ function .epc_pure_identity_to_scheme [.str u] [] = .ok o := by
  obtain ⟨x, hx, rfl⟩ := constructed h
  refine ⟨?_, ?_⟩
  · rw [C91_epc_uri, (c.new_facts hx).2.1]
  · rw [C93_epc_pure_identity_to_scheme, (C38_accepted c u x hx).1]; rfl

/-- The objects that can be made. -/
private def New (x : Scheme) : Prop := ∃ c : Cls, c.new x.epcUri = .ok x

private theorem new_made {c : Cls} {u : Str} {x : Scheme} (h : c.new u = .ok x) : New x := ⟨c, by rw [(c.new_facts h).2.1, h]⟩

private theorem new_scheme {s : Str} {x : Scheme} (h : epcPureIdentityToScheme s = .ok x) : New x := by
  unfold epcPureIdentityToScheme at h
  obtain ⟨id, -, h⟩ := bind_ok_iff.1 h
  split at h
  · cases h
  · exact new_made h

private theorem new_element {s : Str} {k : Int} {x : Scheme} (h : gs1ElementStringToGs1Element s k = .ok x) : New x := by
  unfold gs1ElementStringToGs1Element at h
  split at h
  · exact ⟨_, (Cls.fromElem_made h).1⟩
  · cases h

private theorem new_tag {s : Str} {x : Scheme} (h : tagUriToTagEncodable s = .ok x) : New x := by
  unfold tagUriToTagEncodable at h
  obtain ⟨part, -, h⟩ := bind_ok_iff.1 h
  obtain ⟨id, -, h⟩ := bind_ok_iff.1 h
  split at h
  · cases h
  · exact ⟨_, (Cls.fromTagUri_made h).1⟩

private theorem new_binary {s : Str} {x : Scheme} (h : binaryToTagEncodable s = .ok x) : New x := by
  unfold binaryToTagEncodable at h
  split at h
  · cases h
  · exact ⟨_, (Cls.fromBinary_made h).1⟩

private theorem new_hex {s : Str} {x : Scheme} (h : hexToTagEncodable s = .ok x) : New x := by
  unfold hexToTagEncodable at h
  obtain ⟨b, -, h⟩ := bind_ok_iff.1 h
  exact new_binary h

private theorem new_base64 {s : Str} {x : Scheme} (h : base64ToTagEncodable s = .ok x) : New x := by
  unfold base64ToTagEncodable at h
  obtain ⟨b, -, h⟩ := bind_ok_iff.1 h
  exact new_hex h

private theorem new_require {p : Cls → Bool} {s : Str} {x : Scheme} (h : (epcPureIdentityToScheme s >>= requireCls p) = .ok x) : New x := by
  obtain ⟨y, hy, h⟩ := bind_ok_iff.1 h
  unfold requireCls at h
  split at h
  · cases h; exact new_scheme hy
  · cases h

private theorem made_of {r : M Val} {r' : Except Err Scheme} {p : Val} (e : r = outcome objScheme r') (H : ∀ x, r' = .ok x → New x) (h : r = .ok p) :
    ∃ c u, construct (clOf c) [.str u] = .ok p ∧ read p .epc_uri = .ok (.str u) := by
  cases r' with
  | error _ => rw [e] at h; cases h
  | ok x =>
    rw [e] at h; cases h
    obtain ⟨c, hc⟩ := H x rfl
    exact ⟨c, x.epcUri, by rw [(C91_constructors c _).1, hc]; rfl, C91_epc_uri x⟩

/-- The functions that make an object of a text. -/
def parsers : List Nm :=
  [.epc_pure_identity_to_scheme, .epc_pure_identity_to_gs1_element, .epc_pure_identity_to_gs1_keyed, .epc_pure_identity_to_tag_encodable,
    .tag_uri_to_tag_encodable, .binary_to_tag_encodable, .hex_to_tag_encodable, .base64_to_tag_encodable]

/-- Whatever text was read: an object that a parser returns is the object that the constructor of its class makes of its URI. -/
theorem C97_parsed (s : Str) (k : Int) (p : Val) :
    (∀ f ∈ parsers, function f [.str s] [] = .ok p → ∃ c u, construct (clOf c) [.str u] = .ok p ∧ read p .epc_uri = .ok (.str u)) ∧
    (function .gs1_element_string_to_gs1_element [.str s, .int k] [] = .ok p →
      ∃ c u, construct (clOf c) [.str u] = .ok p ∧ read p .epc_uri = .ok (.str u)) := by
  refine ⟨?_, made_of (C93_gs1_element_string_to_gs1_element s k) (fun _ => new_element)⟩
  intro f hf
  simp only [parsers, List.mem_cons, List.not_mem_nil, or_false] at hf
  rcases hf with rfl | rfl | rfl | rfl | rfl | rfl | rfl | rfl
  · exact made_of (C93_epc_pure_identity_to_scheme s) (fun _ => new_scheme)
  · exact made_of (C93_epc_pure_identity_to_gs1_element s) (fun _ => new_require)
  · exact made_of (C93_epc_pure_identity_to_gs1_keyed s) (fun _ => new_require)
  · exact made_of (C93_epc_pure_identity_to_tag_encodable s) (fun _ => new_require)
  · exact made_of (C93_tag_uri_to_tag_encodable s) (fun _ => new_tag)
  · exact made_of (C93_binary_to_tag_encodable s) (fun _ => new_binary)
  · exact made_of (C93_hex_to_tag_encodable s) (fun _ => new_hex)
  · exact made_of (C93_base64_to_tag_encodable s) (fun _ => new_base64)

private theorem sent_outcome {o : Val} {r : M Val} (h : SentOn o r) :
    Ends r ∧ ∀ p, r = .ok p → ∃ c u, construct (clOf c) [.str u] = .ok p ∧ read p .epc_uri = .ok (.str u) := by
  cases h with
  | uri u _ => exact ⟨by rw [C93_epc_pure_identity_to_scheme]; exact ends_outcome _ _, fun p => (C97_parsed u 0 p).1 _ (by decide)⟩
  | element u s _ _ => exact ⟨by rw [C93_gs1_element_string_to_gs1_element]; exact ends_outcome _ _, fun p => (C97_parsed s _ p).2⟩
  | tag kw w r t s _ _ hw _ =>
    simp only [tagNotations, List.mem_cons, Prod.mk.injEq, List.not_mem_nil, or_false] at hw
    rcases hw with ⟨rfl, rfl⟩ | ⟨rfl, rfl⟩ | ⟨rfl, rfl⟩ | ⟨rfl, rfl⟩
    · exact ⟨by rw [C93_tag_uri_to_tag_encodable]; exact ends_outcome _ _, fun p => (C97_parsed s 0 p).1 _ (by decide)⟩
    · exact ⟨by rw [C93_binary_to_tag_encodable]; exact ends_outcome _ _, fun p => (C97_parsed s 0 p).1 _ (by decide)⟩
    · exact ⟨by rw [C93_hex_to_tag_encodable]; exact ends_outcome _ _, fun p => (C97_parsed s 0 p).1 _ (by decide)⟩
    · exact ⟨by rw [C93_base64_to_tag_encodable]; exact ends_outcome _ _, fun p => (C97_parsed s 0 p).1 _ (by decide)⟩

/-- Whatever the chain and the URI it starts with: what arrives is an object that the constructor of its class makes of its URI, or one of the
documented exceptions. -/
theorem C97_arrives (c : Cls) (u : Str) (o : Val) (h : construct (clOf c) [.str u] = .ok o) (r : M Val) (hr : Chain o r) :
    Ends r ∧ ∀ p, r = .ok p → ∃ d v, construct (clOf d) [.str v] = .ok p ∧ read p .epc_uri = .ok (.str v) := by
  induction hr generalizing c u with
  | arrived o => exact ⟨trivial, fun p hp => by cases hp; exact ⟨c, u, h, (C97_uri c u o h).1⟩⟩
  | onward o q r hs _ ih =>
    obtain ⟨d, v, hd, -⟩ := (sent_outcome hs).2 q rfl
    exact ih d v hd
  | lost o e hs => exact sent_outcome hs

/-! ### Concrete programs -/

/-- Does the program end with an object that has this URI? -/
def returnsUri (r : M Val) (u : Str) : Bool := returnsStr (r >>= fun o => read o .epc_uri) u

-- an object with a URI that meets the conditions
example : returnsUri (construct .SGTIN [.str (py "urn:epc:id:sgtin:9521141.012345.47%2Fx")]) (py "urn:epc:id:sgtin:9521141.012345.47%2Fx") = true ∧
    PortableUri .sgtin (py "urn:epc:id:sgtin:9521141.012345.47%2Fx") := by
  refine ⟨by decide +kernel, by decide, py "9521141", py "012345", py "47/x", by decide, by decide, rfl, ?_⟩
  rintro ⟨p, m, q, e, -⟩
  have : '(' ∈ py "47/x" := e ▸ (by simp)
  exact absurd this (by decide)

-- a chain: hexadecimal form, element string, base64 form
example : returnsUri (do
    let o ← construct .SGTIN [.str (py "urn:epc:id:sgtin:9521141.012345.4711")]
    let .str h ← invoke o .hex [] [(.binary_coding_scheme, .member .SGTIN .BinaryCodingScheme .SGTIN_96 (py "SGTIN_96") (py "sgtin-96")),
      (.filter_value, .member .SGTINFilterValue .IMPLICIT .POS_ITEM (py "POS_ITEM") (py "1"))] | .error .name
    let p ← function .hex_to_tag_encodable [.str h] []
    let .str s ← invoke p .gs1_element_string [] [] | .error .name
    let q ← function .gs1_element_string_to_gs1_element [.str s, .int 7] []
    let .str b ← invoke q .base64 [] [(.binary_coding_scheme, .member .SGTIN .BinaryCodingScheme .SGTIN_198 (py "SGTIN_198") (py "sgtin-198")),
      (.filter_value, .member .SGTINFilterValue .IMPLICIT .POS_ITEM (py "POS_ITEM") (py "1"))] | .error .name
    function .base64_to_tag_encodable [.str b] []) (py "urn:epc:id:sgtin:9521141.012345.4711") = true := by decide +kernel

-- a URI that does not meet them, and a chain that changes the object
example : ¬ PortableUri .sscc (py "urn:epc:id:sscc:952114١.1234567890") := by show ¬ Ascii _; decide
example : returnsUri (do
    let o ← construct .SSCC [.str (py "urn:epc:id:sscc:952114١.1234567890")]
    let .str b ← invoke o .binary [] [(.binary_coding_scheme, .member .SSCC .BinaryCodingScheme .SSCC_96 (py "SSCC_96") (py "sscc-96")),
      (.filter_value, .member .SSCCFilterValue .IMPLICIT .FULL_CASE (py "FULL_CASE") (py "2"))] | .error .name
    function .binary_to_tag_encodable [.str b] []) (py "urn:epc:id:sscc:9521141.1234567890") = true := by decide +kernel

-- the keyword arguments are those of the source
example : (options (objScheme (.gid ⟨[], [], [], []⟩))).length = 1 ∧ (options (objScheme (.sgtin ⟨[], [], [], [], []⟩))).length = 16 ∧
    (options (objScheme (.adi ⟨[], [], [], []⟩))).length = 64 ∧ options (objScheme (.bic ⟨[], [], [], [], [], []⟩)) = [] := by
  refine ⟨by decide +kernel, by decide +kernel, by decide +kernel, rfl⟩

end Epc.Src
