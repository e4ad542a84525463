/-
C101: the families of classes and their base classes, executed from the source.
-/
import Verif.Spec.Family
import Verif.Refine.Classes
import Verif.Lemmas.Class
import Verif.Props.C88
import Verif.Props.C97
set_option linter.unusedVariables false

namespace Epc.Src
open Spec Grammar

private theorem mro_some (c : Cl) : Epc.mro (fun c => ⟨clsBases c, []⟩) 8 c = some (clsMro c) := by
  cases c <;> rfl

private theorem object_class {x : Scheme} : ∃ as, objScheme x = .obj (clOf x.cls) as := by cases x <;> exact ⟨_, rfl⟩

private theorem made_class {c : Cls} {u : Str} {o : Val} (h : construct (clOf c) [.str u] = .ok o) : ∃ as, o = .obj (clOf c) as := by
  obtain ⟨x, hx, rfl⟩ := constructed h
  obtain ⟨as, ha⟩ := object_class (x := x)
  rw [ha, (Cls.new_facts hx).1]
  exact ⟨as, rfl⟩

/-- `issubclass` and `isinstance` tell derivation. -/
theorem C101_instance :
    (∀ c d : Cl, subclassOf c d = .ok (.bool true) ↔ Derives clsBases c d) ∧
    (∀ c d : Cl, ∃ b, subclassOf c d = .ok (.bool b)) ∧
    ∀ (c : Cls) (u : Str) (o : Val) (d : Cl), construct (clOf c) [.str u] = .ok o → instanceOf o d = subclassOf (clOf c) d := by
  refine ⟨fun c d => ?_, fun c d => ⟨_, rfl⟩, fun c u o d h => ?_⟩
  · rw [← mro_mem (mro_some c) d, ← List.contains_iff_mem]
    show (.ok (.bool ((clsMro c).contains d)) : M Val) = _ ↔ _
    rw [Except.ok.injEq, Val.bool.injEq]
  · obtain ⟨as, rfl⟩ := made_class h
    rfl

/-- Which scheme classes belong to which family. -/
theorem C101_families (c : Cls) :
    Derives clsBases (clOf c) .EPCScheme ∧
    (Derives clsBases (clOf c) .TagEncodable ↔ c ∉ notTags) ∧
    (Derives clsBases (clOf c) .GS1Element ↔ c ∉ notElements) ∧
    (Derives clsBases (clOf c) .GS1Keyed ↔ c ∉ notKeyed) := by
  rw [← mro_mem (mro_some _), ← mro_mem (mro_some _), ← mro_mem (mro_some _), ← mro_mem (mro_some _)]
  revert c
  have : ∀ c ∈ Cls.all, Cl.EPCScheme ∈ clsMro (clOf c) ∧ (Cl.TagEncodable ∈ clsMro (clOf c) ↔ c ∉ notTags) ∧
      (Cl.GS1Element ∈ clsMro (clOf c) ↔ c ∉ notElements) ∧ (Cl.GS1Keyed ∈ clsMro (clOf c) ↔ c ∉ notKeyed) := by decide +kernel
  exact fun c => this c (Cls.mem_all c)

/-- A method of a family to which a class does not belong raises AttributeError, whatever the arguments, on objects and on the class. -/
theorem C101_missing (c : Cls) (u : Str) (o : Val) (d : Cl) (m : Nm) (args : List Val) (kw : List (Nm × Val))
    (h : construct (clOf c) [.str u] = .ok o) (hm : m ∈ familyMethods d) (hd : ¬ Derives clsBases (clOf c) d) :
    invoke o m args kw = .error .attribute ∧ invoke (.cls (clOf c)) m args kw = .error .attribute := by
  obtain ⟨f1, f2, f3, f4⟩ := C101_families c
  have ends : ∀ (z : Val), (∀ L, getAttr L z m = .error .attribute) → invoke z m args kw = .error .attribute := by
    intro z hz
    rw [invoke, read, hz]
    rfl
  obtain ⟨x, hx, rfl⟩ := constructed h
  have hcls := (Cls.new_facts hx).1
  have gone : ∀ {l : List Cls}, ¬ c ∉ l → c ∈ l := fun h => Classical.byContradiction h
  cases d <;> first
    | exact absurd f1 hd
    | (cases hm; done)
    | skip
  case TagEncodable =>
    have hc := gone (fun h => hd (f2.2 h))
    simp only [notTags, List.mem_cons, List.not_mem_nil, or_false] at hc
    simp only [familyMethods, List.mem_cons, List.not_mem_nil, or_false] at hm
    rcases hc with rfl | rfl | rfl | rfl | rfl | rfl | rfl <;> (obtain ⟨y, hy, rfl⟩ := map_ok_iff.1 hx) <;>
      rcases hm with rfl | rfl | rfl | rfl | rfl | rfl | rfl | rfl <;> exact ⟨ends _ fun _ => rfl, ends _ fun _ => rfl⟩
  case GS1Element =>
    have hc := gone (fun h => hd (f3.2 h))
    simp only [notElements, List.mem_cons, List.not_mem_nil, or_false] at hc
    simp only [familyMethods, List.mem_cons, List.not_mem_nil, or_false] at hm
    rcases hc with rfl | rfl | rfl | rfl | rfl <;> (obtain ⟨y, hy, rfl⟩ := map_ok_iff.1 hx) <;>
      rcases hm with rfl | rfl <;> exact ⟨ends _ fun _ => rfl, ends _ fun _ => rfl⟩
  case GS1Keyed =>
    have hc := gone (fun h => hd (f4.2 h))
    simp only [notKeyed, notElements, List.mem_cons, List.not_mem_nil, or_false] at hc
    simp only [familyMethods, List.mem_cons, List.not_mem_nil, or_false] at hm
    rcases hc with rfl | rfl | rfl | rfl | rfl | rfl | rfl | rfl <;> (obtain ⟨y, hy, rfl⟩ := map_ok_iff.1 hx) <;>
      subst hm <;> exact ⟨ends _ fun _ => rfl, ends _ fun _ => rfl⟩

/-- An object of a base class can be made of any value. -/
theorem C101_base (b : Cl) (hb : b ∈ baseClasses) (v : Val) :
    ∃ o, construct b [v] = .ok o ∧ invoke (.cls b) .from_epc_uri [v] [] = .ok o ∧ read o .epc_uri = .ok v ∧ ∀ d, instanceOf o d = subclassOf b d := by
  simp only [baseClasses, List.mem_cons, List.not_mem_nil, or_false] at hb
  rcases hb with rfl | rfl | rfl | rfl <;> exact ⟨_, rfl, rfl, rfl, fun _ => rfl⟩

private def tagObj (v : Val) : Val :=
  .obj .TagEncodable [(.epc_uri, v), (._base64, .none), (._binary, .none), (._hex, .none), (._tag_uri, .none)]

/-- The output methods that an object of a base class has raise NotImplementedError, whatever the arguments; the others are missing. -/
theorem C101_abstract (b d : Cl) (hb : b ∈ baseClasses) (v o : Val) (ho : construct b [v] = .ok o) (m : Nm)
    (hm : m ∈ [Nm.tag_uri, .binary, .hex, .base64, .gs1_element_string, .gs1_key]) (hd : m ∈ familyMethods d)
    (args : List Val) (kw : List (Nm × Val)) (hk : .self ∉ kw.map (·.1)) :
    (Derives clsBases b d → invoke o m args kw = .error .notImplemented) ∧ (¬ Derives clsBases b d → invoke o m args kw = .error .attribute) := by
  rw [← mro_mem (mro_some b) d]
  have hs : get .self kw = none := by
    clear hd hm
    induction kw with
    | nil => rfl
    | cons p t ih =>
      simp only [List.map_cons, List.mem_cons, not_or] at hk
      rw [get, if_neg hk.1, ih hk.2]
  have hd' : d = if m ∈ [Nm.tag_uri, .binary, .hex, .base64] then .TagEncodable else if m = .gs1_key then .GS1Keyed else .GS1Element := by
    simp only [List.mem_cons, List.not_mem_nil, or_false] at hm
    rcases hm with rfl | rfl | rfl | rfl | rfl | rfl <;> cases d <;> first | rfl | (exact absurd hd (by decide))
  have missing : ∀ (z : Val), (∀ L, getAttr L z m = .error .attribute) → invoke z m args kw = .error .attribute := by
    intro z hz
    rw [invoke, read, hz]
    rfl
  have hex : ∀ n as, (level (n + 2)).app (.bound TagEncodable.hex (tagObj v)) as kw = .error .notImplemented := by
    intro n as
    have hg : ∀ L, getAttr L (tagObj v) .binary = .ok (.bound TagEncodable.binary (tagObj v)) := fun _ => rfl
    rw [app_bound]
    exe [TagEncodable.hex, hg, hs, (not_implemented n (tagObj v) [] kw hs).2.1]
  have base64 : ∀ n as, (level (n + 3)).app (.bound TagEncodable.base64 (tagObj v)) as kw = .error .notImplemented := by
    intro n as
    have hg : ∀ L, getAttr L (tagObj v) .hex = .ok (.bound TagEncodable.hex (tagObj v)) := fun _ => rfl
    rw [app_bound]
    exe [TagEncodable.base64, hg, hs, hex]
  subst hd'
  simp only [baseClasses, List.mem_cons, List.not_mem_nil, or_false] at hb hm
  rcases hb with rfl | rfl | rfl | rfl <;> cases ho <;> rcases hm with rfl | rfl | rfl | rfl | rfl | rfl <;> first
    | exact ⟨fun h => absurd h (by decide +kernel), fun _ => missing _ fun _ => rfl⟩
    | exact ⟨fun _ => (not_implemented 23 _ args kw hs).1, fun h => absurd (by decide +kernel) h⟩
    | exact ⟨fun _ => (not_implemented 23 _ args kw hs).2.1, fun h => absurd (by decide +kernel) h⟩
    | exact ⟨fun _ => (not_implemented 23 _ args kw hs).2.2.1, fun h => absurd (by decide +kernel) h⟩
    | exact ⟨fun _ => (not_implemented 23 _ args kw hs).2.2.2, fun h => absurd (by decide +kernel) h⟩
    | exact ⟨fun _ => hex 22 args, fun h => absurd (by decide +kernel) h⟩
    | exact ⟨fun _ => base64 21 args, fun h => absurd (by decide +kernel) h⟩
    | fail "stuck"

/-- Reading a tag or an element string with a base class never returns an object. -/
theorem C101_abstract_readers (t : Str) (k : Int) :
    (∀ m ∈ [Nm.from_binary, .from_hex, .from_base64], ∀ o, invoke (.cls .TagEncodable) m [.str t] [] ≠ .ok o) ∧
    (∀ b ∈ [Cl.GS1Element, .GS1Keyed], invoke (.cls b) .from_gs1_element_string [.str t, .int k] [] = .error .notImplemented) := by
  have hg : ∀ L, getAttr L (.cls .TagEncodable) .from_binary = .ok (.bound TagEncodable.from_binary (.cls .TagEncodable)) := fun _ => rfl
  have hg' : ∀ L, getAttr L (.cls .TagEncodable) .from_hex = .ok (.bound TagEncodable.from_hex (.cls .TagEncodable)) := fun _ => rfl
  have hx : ∀ n (t : Str), ∃ e, (level (n + 15)).app (.bound TagEncodable.from_hex (.cls .TagEncodable)) [.str t] [] = .error e := by
    intro n t
    rw [app_bound]
    cases h : hexToBinary t with
    | error e => exact ⟨_, by exe [TagEncodable.from_hex, hg, sem_hex_to_binary, h]; try rfl⟩
    | ok b => exact ⟨_, by exe [TagEncodable.from_hex, hg, sem_hex_to_binary, h]; try rfl⟩
  refine ⟨fun m hm o ho => ?_, fun b hb => ?_⟩
  · simp only [List.mem_cons, List.not_mem_nil, or_false] at hm
    rcases hm with rfl | rfl | rfl
    · cases ho
    · obtain ⟨e, he⟩ := hx 9 t
      rw [invoke, read, hg', show (Except.ok (Val.bound TagEncodable.from_hex (.cls .TagEncodable)) >>= fun f => applyVal (level 24) f [.str t] []) = .error e from he] at ho
      cases ho
    · have hb : ∃ e, (level (8 + 16)).app (.bound TagEncodable.from_base64 (.cls .TagEncodable)) [.str t] [] = .error e := by
        rw [app_bound]
        cases h : base64ToHex t with
        | error e => exact ⟨_, by exe [TagEncodable.from_base64, hg', sem_base64_to_hex, h]; try rfl⟩
        | ok b =>
          obtain ⟨e, he⟩ := hx 8 b
          exact ⟨_, by exe [TagEncodable.from_base64, hg', sem_base64_to_hex, h, he]; try rfl⟩
      obtain ⟨e, he⟩ := hb
      have hg2 : ∀ L, getAttr L (.cls .TagEncodable) .from_base64 = .ok (.bound TagEncodable.from_base64 (.cls .TagEncodable)) := fun _ => rfl
      rw [invoke, read, hg2, show (Except.ok (Val.bound TagEncodable.from_base64 (.cls .TagEncodable)) >>= fun f => applyVal (level 24) f [.str t] []) = .error e from he] at ho
      cases ho
  · simp only [List.mem_cons, List.not_mem_nil, or_false] at hb
    rcases hb with rfl | rfl <;> rfl

/-- An object of a base class compares with others by the URI. -/
theorem C101_equality (b d : Cl) (hb : b ∈ baseClasses) (hd : d ∈ baseClasses ++ Cls.all.map clOf) (u w : Str) (o p : Val)
    (ho : construct b [.str u] = .ok o) (hp : construct d [.str w] = .ok p) :
    invoke o .__eq__ [p] [] = .ok (.bool (decide (u = w))) ∧ invoke p .__eq__ [o] [] = .ok (.bool (decide (w = u))) := by
  have facts : ∀ {d : Cl} {w : Str} {p : Val}, d ∈ baseClasses ++ Cls.all.map clOf → construct d [.str w] = .ok p →
      (∀ L, getAttr L p .__eq__ = .ok (.bound EPCScheme.__eq__ p)) ∧ (∀ L, getAttr L p .epc_uri = .ok (.str w)) ∧
      builtinCall .isinstance [p, .cls .EPCScheme] = .ok (.bool true) := by
    intro d w p hd hp
    rcases List.mem_append.1 hd with hd | hd
    · simp only [baseClasses, List.mem_cons, List.not_mem_nil, or_false] at hd
      rcases hd with rfl | rfl | rfl | rfl <;> cases hp <;> exact ⟨fun _ => rfl, fun _ => rfl, rfl⟩
    · obtain ⟨c, -, rfl⟩ := List.mem_map.1 hd
      obtain ⟨x, hx, rfl⟩ := constructed hp
      exact ⟨fun L => attr_eq L x, fun L => by rw [read_epc_uri, (Cls.new_facts hx).2.1], isinstance_scheme x⟩
  have eq : ∀ {z y : Val} {u w : Str}, (∀ L, getAttr L z .__eq__ = .ok (.bound EPCScheme.__eq__ z)) → (∀ L, getAttr L z .epc_uri = .ok (.str u)) →
      (∀ L, getAttr L y .epc_uri = .ok (.str w)) → builtinCall .isinstance [y, .cls .EPCScheme] = .ok (.bool true) →
      invoke z .__eq__ [y] [] = .ok (.bool (decide (u = w))) := by
    intro z y u w h1 h2 h3 h4
    refine invoke_eq rfl h1 (?_ : (level (23 + 1)).app _ _ _ = _)
    rw [app_bound]
    exe [EPCScheme.__eq__, h2, h3, h4]
    congr 2
    rw [Bool.eq_iff_iff, beq_iff_eq, decide_eq_true_iff]
  obtain ⟨a1, a2, a3⟩ := facts (List.mem_append.2 (.inl hb)) ho
  obtain ⟨b1, b2, b3⟩ := facts hd hp
  exact ⟨eq a1 a2 b2 b3, eq b1 b2 a2 a3⟩

/-- `TagEncodable.from_tag_uri` returns an object with the URI of the one that `tag_uri_to_tag_encodable` returns, equal to it; for GID it has to be
told that there is no filter value. -/
theorem C101_from_tag_uri (t : Str) (p : Val) (h : function .tag_uri_to_tag_encodable [.str t] [] = .ok p) :
    ∃ c u o, construct (clOf c) [.str u] = .ok p ∧ construct .TagEncodable [.str u] = .ok o ∧
      invoke (.cls .TagEncodable) .from_tag_uri [.str t] [(.includes_filter, .bool (decide (c ≠ .gid)))] = .ok o := by
  rw [C93_tag_uri_to_tag_encodable] at h
  cases hy : tagUriToTagEncodable t with
  | error e => rw [hy] at h; cases h
  | ok y =>
    rw [hy] at h
    cases h
    obtain ⟨o, ho, hc, he⟩ := C88_from_tag_uri t y hy
    obtain ⟨c, hf⟩ := (tagUriToTagEncodable_iff t y).1 hy
    obtain ⟨hn, rfl⟩ := Cls.fromTagUri_made hf
    rw [Obj.eq, beq_iff_eq] at he
    cases o with
    | scheme z => cases hc
    | base C u =>
      cases hc
      obtain rfl : u = y.epcUri := he
      refine ⟨y.cls, y.epcUri, _, ?_, rfl, ?_⟩
      · rw [(C91_constructors y.cls y.epcUri).1, hn]
        rfl
      · have hs := sem_from_tag_uri 13 .TagEncodable (new := PyCls.new .tagEncodable) (toV := fun o => .obj .TagEncodable (tagAttrs o.epcUri []))
          (fun _ => rfl) t (decide (y.cls ≠ .gid))
        refine invoke_eq rfl (fun _ => rfl) (hs.trans ?_)
        rw [show Epc.fromTagUri (PyCls.new .tagEncodable) (decide (y.cls ≠ .gid)) t = _ from ho]
        rfl

/-- Objects of base classes are equal to valid objects with the same URI; the hypotheses are met. -/
example : (do
    let o ← construct .TagEncodable [.str (py "urn:epc:id:sgtin:0614141.812345.6789")]
    let p ← construct .SGTIN [.str (py "urn:epc:id:sgtin:0614141.812345.6789")]
    invoke o .__eq__ [p] []) matches .ok (.bool true) := by decide +kernel

example : raises (construct .PGLN [.str (py "urn:epc:id:pgln:9521321.00000")] >>= fun o => invoke o .hex [] []) .attribute ∧
    raises (construct .TagEncodable [.int 5] >>= fun o => invoke o .hex [.int 5] [(.filter_value, .none)]) .notImplemented ∧
    raises (construct .GS1Element [.none] >>= fun o => invoke o .gs1_key [] []) .attribute ∧
    (function .tag_uri_to_tag_encodable [.str (py "urn:epc:tag:gid-96:952056.2718.1414")] []).toBool = true := by decide +kernel

end Epc.Src
