/-
Specification vocabulary: derivation of classes.
-/
namespace Epc.Spec

/-- `c` is `d` or derives from it: `d` is reached from `c` through base classes. -/
inductive Derives {κ : Type} (bases : κ → List κ) : κ → κ → Prop where
  | refl (c : κ) : Derives bases c c
  | base {c b d : κ} : b ∈ bases c → Derives bases b d → Derives bases c d

end Epc.Spec
