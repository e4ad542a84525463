/-
C76, C77: the arguments of `tag_uri`, `binary`, `hex` and `base64`, passed by position, by name or left to the default value.

`Passes ps pos kw vs` (`Spec/Call`): the call `f(*pos, **kw)` gives the parameters `ps` the values `vs`.
Generated by tools/gen_calls.py.
-/
import Verif.Lemmas.Call

namespace Epc
open Spec

/-! ### C76: `hex` and `base64` drop positional arguments -/

theorem C76_sgtin_claim_false : ¬ ∀ (x : SGTIN) (pos : List (Arg SGTIN.Coding 8)) (kw : List (Str × Arg SGTIN.Coding 8)),
    x.hexCall pos kw = hexOf (x.binaryCall pos kw) ∧ x.base64Call pos kw = base64Of (x.binaryCall pos kw) := by
  intro h
  cases e : SGTIN.new (py "urn:epc:id:sgtin:0614141.812345.6789") with
  | error _ =>
    have hx : (SGTIN.new (py "urn:epc:id:sgtin:0614141.812345.6789")).toBool = true := by decide +kernel
    rw [e] at hx; exact Bool.noConfusion hx
  | ok x =>
    have hx : ((SGTIN.new (py "urn:epc:id:sgtin:0614141.812345.6789")).toOption.map fun x => decide (x.hexCall [.coding .sgtin96, .filter 3] [] = hexOf (x.binaryCall [.coding .sgtin96, .filter 3] []))) = some false := by
      decide +kernel
    rw [e] at hx
    have hx : decide (x.hexCall [.coding .sgtin96, .filter 3] [] = hexOf (x.binaryCall [.coding .sgtin96, .filter 3] [])) = false := Option.some.inj hx
    exact absurd (h x [.coding .sgtin96, .filter 3] []).1 (of_decide_eq_false hx)

/-- Whatever the positional arguments are, the keyword arguments decide. -/
theorem C76_sgtin_partial (x : SGTIN) (pos : List (Arg SGTIN.Coding 8)) (kw : List (Str × Arg SGTIN.Coding 8)) :
    (∀ cs f, Passes [(py "binary_coding_scheme", none), (py "filter_value", none)] [] kw [.coding cs, .filter f] →
      x.hexCall pos kw = x.hex cs f ∧ x.base64Call pos kw = x.base64 cs f) ∧
    ((¬ ∃ vs, Passes (α := Arg SGTIN.Coding 8) [(py "binary_coding_scheme", none), (py "filter_value", none)] [] kw vs) →
      x.hexCall pos kw = .error .type ∧ x.base64Call pos kw = .error .type) := by
  constructor
  · intro cs f h
    have hb : x.binaryCall [] kw = x.binary cs f := by
      unfold SGTIN.binaryCall
      rw [(bindArgs_iff (ps := SGTIN.binaryParams) (by decide)).2 h, ok_bind]
      rfl
    have hh : x.hexCall pos kw = x.hex cs f := by
      unfold SGTIN.hexCall hexCallOf
      rw [hb]
      rfl
    refine ⟨hh, ?_⟩
    unfold SGTIN.base64Call base64CallOf hexCallOf
    rw [hb]
    rfl
  · intro h
    have hb : x.binaryCall [] kw = .error .type := by
      unfold SGTIN.binaryCall
      rw [bindArgs_none (ps := SGTIN.binaryParams) (by decide) h, error_bind]
    constructor
    · unfold SGTIN.hexCall hexCallOf
      rw [hb]
      rfl
    · unfold SGTIN.base64Call base64CallOf hexCallOf
      rw [hb]
      rfl

theorem C76_sscc_claim_false : ¬ ∀ (x : SSCC) (pos : List (Arg SSCC.Coding 8)) (kw : List (Str × Arg SSCC.Coding 8)),
    x.hexCall pos kw = hexOf (x.binaryCall pos kw) ∧ x.base64Call pos kw = base64Of (x.binaryCall pos kw) := by
  intro h
  cases e : SSCC.new (py "urn:epc:id:sscc:0614141.1234567890") with
  | error _ =>
    have hx : (SSCC.new (py "urn:epc:id:sscc:0614141.1234567890")).toBool = true := by decide +kernel
    rw [e] at hx; exact Bool.noConfusion hx
  | ok x =>
    have hx : ((SSCC.new (py "urn:epc:id:sscc:0614141.1234567890")).toOption.map fun x => decide (x.hexCall [.filter 3, .coding .sscc96] [] = hexOf (x.binaryCall [.filter 3, .coding .sscc96] []))) = some false := by
      decide +kernel
    rw [e] at hx
    have hx : decide (x.hexCall [.filter 3, .coding .sscc96] [] = hexOf (x.binaryCall [.filter 3, .coding .sscc96] [])) = false := Option.some.inj hx
    exact absurd (h x [.filter 3, .coding .sscc96] []).1 (of_decide_eq_false hx)

/-- Whatever the positional arguments are, the keyword arguments decide. -/
theorem C76_sscc_partial (x : SSCC) (pos : List (Arg SSCC.Coding 8)) (kw : List (Str × Arg SSCC.Coding 8)) :
    (∀ cs f, Passes [(py "filter_value", none), (py "binary_coding_scheme", some (.coding .sscc96))] [] kw [.filter f, .coding cs] →
      x.hexCall pos kw = x.hex cs f ∧ x.base64Call pos kw = x.base64 cs f) ∧
    ((¬ ∃ vs, Passes (α := Arg SSCC.Coding 8) [(py "filter_value", none), (py "binary_coding_scheme", some (.coding .sscc96))] [] kw vs) →
      x.hexCall pos kw = .error .type ∧ x.base64Call pos kw = .error .type) := by
  constructor
  · intro cs f h
    have hb : x.binaryCall [] kw = x.binary cs f := by
      unfold SSCC.binaryCall
      rw [(bindArgs_iff (ps := SSCC.binaryParams) (by decide)).2 h, ok_bind]
      rfl
    have hh : x.hexCall pos kw = x.hex cs f := by
      unfold SSCC.hexCall hexCallOf
      rw [hb]
      rfl
    refine ⟨hh, ?_⟩
    unfold SSCC.base64Call base64CallOf hexCallOf
    rw [hb]
    rfl
  · intro h
    have hb : x.binaryCall [] kw = .error .type := by
      unfold SSCC.binaryCall
      rw [bindArgs_none (ps := SSCC.binaryParams) (by decide) h, error_bind]
    constructor
    · unfold SSCC.hexCall hexCallOf
      rw [hb]
      rfl
    · unfold SSCC.base64Call base64CallOf hexCallOf
      rw [hb]
      rfl

theorem C76_sgln_claim_false : ¬ ∀ (x : SGLN) (pos : List (Arg SGLN.Coding 8)) (kw : List (Str × Arg SGLN.Coding 8)),
    x.hexCall pos kw = hexOf (x.binaryCall pos kw) ∧ x.base64Call pos kw = base64Of (x.binaryCall pos kw) := by
  intro h
  cases e : SGLN.new (py "urn:epc:id:sgln:0614141.12345.400") with
  | error _ =>
    have hx : (SGLN.new (py "urn:epc:id:sgln:0614141.12345.400")).toBool = true := by decide +kernel
    rw [e] at hx; exact Bool.noConfusion hx
  | ok x =>
    have hx : ((SGLN.new (py "urn:epc:id:sgln:0614141.12345.400")).toOption.map fun x => decide (x.hexCall [.coding .sgln96, .filter 3] [] = hexOf (x.binaryCall [.coding .sgln96, .filter 3] []))) = some false := by
      decide +kernel
    rw [e] at hx
    have hx : decide (x.hexCall [.coding .sgln96, .filter 3] [] = hexOf (x.binaryCall [.coding .sgln96, .filter 3] [])) = false := Option.some.inj hx
    exact absurd (h x [.coding .sgln96, .filter 3] []).1 (of_decide_eq_false hx)

/-- Whatever the positional arguments are, the keyword arguments decide. -/
theorem C76_sgln_partial (x : SGLN) (pos : List (Arg SGLN.Coding 8)) (kw : List (Str × Arg SGLN.Coding 8)) :
    (∀ cs f, Passes [(py "binary_coding_scheme", none), (py "filter_value", none)] [] kw [.coding cs, .filter f] →
      x.hexCall pos kw = x.hex cs f ∧ x.base64Call pos kw = x.base64 cs f) ∧
    ((¬ ∃ vs, Passes (α := Arg SGLN.Coding 8) [(py "binary_coding_scheme", none), (py "filter_value", none)] [] kw vs) →
      x.hexCall pos kw = .error .type ∧ x.base64Call pos kw = .error .type) := by
  constructor
  · intro cs f h
    have hb : x.binaryCall [] kw = x.binary cs f := by
      unfold SGLN.binaryCall
      rw [(bindArgs_iff (ps := SGLN.binaryParams) (by decide)).2 h, ok_bind]
      rfl
    have hh : x.hexCall pos kw = x.hex cs f := by
      unfold SGLN.hexCall hexCallOf
      rw [hb]
      rfl
    refine ⟨hh, ?_⟩
    unfold SGLN.base64Call base64CallOf hexCallOf
    rw [hb]
    rfl
  · intro h
    have hb : x.binaryCall [] kw = .error .type := by
      unfold SGLN.binaryCall
      rw [bindArgs_none (ps := SGLN.binaryParams) (by decide) h, error_bind]
    constructor
    · unfold SGLN.hexCall hexCallOf
      rw [hb]
      rfl
    · unfold SGLN.base64Call base64CallOf hexCallOf
      rw [hb]
      rfl

theorem C76_grai_claim_false : ¬ ∀ (x : GRAI) (pos : List (Arg GRAI.Coding 8)) (kw : List (Str × Arg GRAI.Coding 8)),
    x.hexCall pos kw = hexOf (x.binaryCall pos kw) ∧ x.base64Call pos kw = base64Of (x.binaryCall pos kw) := by
  intro h
  cases e : GRAI.new (py "urn:epc:id:grai:0614141.12345.400") with
  | error _ =>
    have hx : (GRAI.new (py "urn:epc:id:grai:0614141.12345.400")).toBool = true := by decide +kernel
    rw [e] at hx; exact Bool.noConfusion hx
  | ok x =>
    have hx : ((GRAI.new (py "urn:epc:id:grai:0614141.12345.400")).toOption.map fun x => decide (x.hexCall [.coding .grai96, .filter 3] [] = hexOf (x.binaryCall [.coding .grai96, .filter 3] []))) = some false := by
      decide +kernel
    rw [e] at hx
    have hx : decide (x.hexCall [.coding .grai96, .filter 3] [] = hexOf (x.binaryCall [.coding .grai96, .filter 3] [])) = false := Option.some.inj hx
    exact absurd (h x [.coding .grai96, .filter 3] []).1 (of_decide_eq_false hx)

/-- Whatever the positional arguments are, the keyword arguments decide. -/
theorem C76_grai_partial (x : GRAI) (pos : List (Arg GRAI.Coding 8)) (kw : List (Str × Arg GRAI.Coding 8)) :
    (∀ cs f, Passes [(py "binary_coding_scheme", none), (py "filter_value", none)] [] kw [.coding cs, .filter f] →
      x.hexCall pos kw = x.hex cs f ∧ x.base64Call pos kw = x.base64 cs f) ∧
    ((¬ ∃ vs, Passes (α := Arg GRAI.Coding 8) [(py "binary_coding_scheme", none), (py "filter_value", none)] [] kw vs) →
      x.hexCall pos kw = .error .type ∧ x.base64Call pos kw = .error .type) := by
  constructor
  · intro cs f h
    have hb : x.binaryCall [] kw = x.binary cs f := by
      unfold GRAI.binaryCall
      rw [(bindArgs_iff (ps := GRAI.binaryParams) (by decide)).2 h, ok_bind]
      rfl
    have hh : x.hexCall pos kw = x.hex cs f := by
      unfold GRAI.hexCall hexCallOf
      rw [hb]
      rfl
    refine ⟨hh, ?_⟩
    unfold GRAI.base64Call base64CallOf hexCallOf
    rw [hb]
    rfl
  · intro h
    have hb : x.binaryCall [] kw = .error .type := by
      unfold GRAI.binaryCall
      rw [bindArgs_none (ps := GRAI.binaryParams) (by decide) h, error_bind]
    constructor
    · unfold GRAI.hexCall hexCallOf
      rw [hb]
      rfl
    · unfold GRAI.base64Call base64CallOf hexCallOf
      rw [hb]
      rfl

theorem C76_giai_claim_false : ¬ ∀ (x : GIAI) (pos : List (Arg GIAI.Coding 8)) (kw : List (Str × Arg GIAI.Coding 8)),
    x.hexCall pos kw = hexOf (x.binaryCall pos kw) ∧ x.base64Call pos kw = base64Of (x.binaryCall pos kw) := by
  intro h
  cases e : GIAI.new (py "urn:epc:id:giai:0614141.12345400") with
  | error _ =>
    have hx : (GIAI.new (py "urn:epc:id:giai:0614141.12345400")).toBool = true := by decide +kernel
    rw [e] at hx; exact Bool.noConfusion hx
  | ok x =>
    have hx : ((GIAI.new (py "urn:epc:id:giai:0614141.12345400")).toOption.map fun x => decide (x.hexCall [.coding .giai96, .filter 3] [] = hexOf (x.binaryCall [.coding .giai96, .filter 3] []))) = some false := by
      decide +kernel
    rw [e] at hx
    have hx : decide (x.hexCall [.coding .giai96, .filter 3] [] = hexOf (x.binaryCall [.coding .giai96, .filter 3] [])) = false := Option.some.inj hx
    exact absurd (h x [.coding .giai96, .filter 3] []).1 (of_decide_eq_false hx)

/-- Whatever the positional arguments are, the keyword arguments decide. -/
theorem C76_giai_partial (x : GIAI) (pos : List (Arg GIAI.Coding 8)) (kw : List (Str × Arg GIAI.Coding 8)) :
    (∀ cs f, Passes [(py "binary_coding_scheme", none), (py "filter_value", none)] [] kw [.coding cs, .filter f] →
      x.hexCall pos kw = x.hex cs f ∧ x.base64Call pos kw = x.base64 cs f) ∧
    ((¬ ∃ vs, Passes (α := Arg GIAI.Coding 8) [(py "binary_coding_scheme", none), (py "filter_value", none)] [] kw vs) →
      x.hexCall pos kw = .error .type ∧ x.base64Call pos kw = .error .type) := by
  constructor
  · intro cs f h
    have hb : x.binaryCall [] kw = x.binary cs f := by
      unfold GIAI.binaryCall
      rw [(bindArgs_iff (ps := GIAI.binaryParams) (by decide)).2 h, ok_bind]
      rfl
    have hh : x.hexCall pos kw = x.hex cs f := by
      unfold GIAI.hexCall hexCallOf
      rw [hb]
      rfl
    refine ⟨hh, ?_⟩
    unfold GIAI.base64Call base64CallOf hexCallOf
    rw [hb]
    rfl
  · intro h
    have hb : x.binaryCall [] kw = .error .type := by
      unfold GIAI.binaryCall
      rw [bindArgs_none (ps := GIAI.binaryParams) (by decide) h, error_bind]
    constructor
    · unfold GIAI.hexCall hexCallOf
      rw [hb]
      rfl
    · unfold GIAI.base64Call base64CallOf hexCallOf
      rw [hb]
      rfl

theorem C76_gsrn_claim_false : ¬ ∀ (x : GSRN) (pos : List (Arg GSRN.Coding 8)) (kw : List (Str × Arg GSRN.Coding 8)),
    x.hexCall pos kw = hexOf (x.binaryCall pos kw) ∧ x.base64Call pos kw = base64Of (x.binaryCall pos kw) := by
  intro h
  cases e : GSRN.new (py "urn:epc:id:gsrn:0614141.1234567890") with
  | error _ =>
    have hx : (GSRN.new (py "urn:epc:id:gsrn:0614141.1234567890")).toBool = true := by decide +kernel
    rw [e] at hx; exact Bool.noConfusion hx
  | ok x =>
    have hx : ((GSRN.new (py "urn:epc:id:gsrn:0614141.1234567890")).toOption.map fun x => decide (x.hexCall [.coding .gsrn96, .filter 3] [] = hexOf (x.binaryCall [.coding .gsrn96, .filter 3] []))) = some false := by
      decide +kernel
    rw [e] at hx
    have hx : decide (x.hexCall [.coding .gsrn96, .filter 3] [] = hexOf (x.binaryCall [.coding .gsrn96, .filter 3] [])) = false := Option.some.inj hx
    exact absurd (h x [.coding .gsrn96, .filter 3] []).1 (of_decide_eq_false hx)

/-- `GSRN.hex` and `GSRN.base64` even answer, for the default filter value instead of the one they were given. -/
theorem C76_gsrn_silent (x : GSRN) (f : Fin 8) :
    x.hexCall [.coding .gsrn96, .filter f] [] = x.hex .gsrn96 0 ∧ x.base64Call [.coding .gsrn96, .filter f] [] = x.base64 .gsrn96 0 := ⟨rfl, rfl⟩

/-- Whatever the positional arguments are, the keyword arguments decide. -/
theorem C76_gsrn_partial (x : GSRN) (pos : List (Arg GSRN.Coding 8)) (kw : List (Str × Arg GSRN.Coding 8)) :
    (∀ cs f, Passes [(py "binary_coding_scheme", some (.coding .gsrn96)), (py "filter_value", some (.filter 0))] [] kw [.coding cs, .filter f] →
      x.hexCall pos kw = x.hex cs f ∧ x.base64Call pos kw = x.base64 cs f) ∧
    ((¬ ∃ vs, Passes (α := Arg GSRN.Coding 8) [(py "binary_coding_scheme", some (.coding .gsrn96)), (py "filter_value", some (.filter 0))] [] kw vs) →
      x.hexCall pos kw = .error .type ∧ x.base64Call pos kw = .error .type) := by
  constructor
  · intro cs f h
    have hb : x.binaryCall [] kw = x.binary cs f := by
      unfold GSRN.binaryCall
      rw [(bindArgs_iff (ps := GSRN.binaryParams) (by decide)).2 h, ok_bind]
      rfl
    have hh : x.hexCall pos kw = x.hex cs f := by
      unfold GSRN.hexCall hexCallOf
      rw [hb]
      rfl
    refine ⟨hh, ?_⟩
    unfold GSRN.base64Call base64CallOf hexCallOf
    rw [hb]
    rfl
  · intro h
    have hb : x.binaryCall [] kw = .error .type := by
      unfold GSRN.binaryCall
      rw [bindArgs_none (ps := GSRN.binaryParams) (by decide) h, error_bind]
    constructor
    · unfold GSRN.hexCall hexCallOf
      rw [hb]
      rfl
    · unfold GSRN.base64Call base64CallOf hexCallOf
      rw [hb]
      rfl

theorem C76_gsrnp_claim_false : ¬ ∀ (x : GSRNP) (pos : List (Arg GSRNP.Coding 8)) (kw : List (Str × Arg GSRNP.Coding 8)),
    x.hexCall pos kw = hexOf (x.binaryCall pos kw) ∧ x.base64Call pos kw = base64Of (x.binaryCall pos kw) := by
  intro h
  cases e : GSRNP.new (py "urn:epc:id:gsrnp:0614141.1234567890") with
  | error _ =>
    have hx : (GSRNP.new (py "urn:epc:id:gsrnp:0614141.1234567890")).toBool = true := by decide +kernel
    rw [e] at hx; exact Bool.noConfusion hx
  | ok x =>
    have hx : ((GSRNP.new (py "urn:epc:id:gsrnp:0614141.1234567890")).toOption.map fun x => decide (x.hexCall [.coding .gsrnp96, .filter 3] [] = hexOf (x.binaryCall [.coding .gsrnp96, .filter 3] []))) = some false := by
      decide +kernel
    rw [e] at hx
    have hx : decide (x.hexCall [.coding .gsrnp96, .filter 3] [] = hexOf (x.binaryCall [.coding .gsrnp96, .filter 3] [])) = false := Option.some.inj hx
    exact absurd (h x [.coding .gsrnp96, .filter 3] []).1 (of_decide_eq_false hx)

/-- `GSRNP.hex` and `GSRNP.base64` even answer, for the default filter value instead of the one they were given. -/
theorem C76_gsrnp_silent (x : GSRNP) (f : Fin 8) :
    x.hexCall [.coding .gsrnp96, .filter f] [] = x.hex .gsrnp96 0 ∧ x.base64Call [.coding .gsrnp96, .filter f] [] = x.base64 .gsrnp96 0 := ⟨rfl, rfl⟩

/-- Whatever the positional arguments are, the keyword arguments decide. -/
theorem C76_gsrnp_partial (x : GSRNP) (pos : List (Arg GSRNP.Coding 8)) (kw : List (Str × Arg GSRNP.Coding 8)) :
    (∀ cs f, Passes [(py "binary_coding_scheme", some (.coding .gsrnp96)), (py "filter_value", some (.filter 0))] [] kw [.coding cs, .filter f] →
      x.hexCall pos kw = x.hex cs f ∧ x.base64Call pos kw = x.base64 cs f) ∧
    ((¬ ∃ vs, Passes (α := Arg GSRNP.Coding 8) [(py "binary_coding_scheme", some (.coding .gsrnp96)), (py "filter_value", some (.filter 0))] [] kw vs) →
      x.hexCall pos kw = .error .type ∧ x.base64Call pos kw = .error .type) := by
  constructor
  · intro cs f h
    have hb : x.binaryCall [] kw = x.binary cs f := by
      unfold GSRNP.binaryCall
      rw [(bindArgs_iff (ps := GSRNP.binaryParams) (by decide)).2 h, ok_bind]
      rfl
    have hh : x.hexCall pos kw = x.hex cs f := by
      unfold GSRNP.hexCall hexCallOf
      rw [hb]
      rfl
    refine ⟨hh, ?_⟩
    unfold GSRNP.base64Call base64CallOf hexCallOf
    rw [hb]
    rfl
  · intro h
    have hb : x.binaryCall [] kw = .error .type := by
      unfold GSRNP.binaryCall
      rw [bindArgs_none (ps := GSRNP.binaryParams) (by decide) h, error_bind]
    constructor
    · unfold GSRNP.hexCall hexCallOf
      rw [hb]
      rfl
    · unfold GSRNP.base64Call base64CallOf hexCallOf
      rw [hb]
      rfl

theorem C76_gdti_claim_false : ¬ ∀ (x : GDTI) (pos : List (Arg GDTI.Coding 8)) (kw : List (Str × Arg GDTI.Coding 8)),
    x.hexCall pos kw = hexOf (x.binaryCall pos kw) ∧ x.base64Call pos kw = base64Of (x.binaryCall pos kw) := by
  intro h
  cases e : GDTI.new (py "urn:epc:id:gdti:0614141.12345.400") with
  | error _ =>
    have hx : (GDTI.new (py "urn:epc:id:gdti:0614141.12345.400")).toBool = true := by decide +kernel
    rw [e] at hx; exact Bool.noConfusion hx
  | ok x =>
    have hx : ((GDTI.new (py "urn:epc:id:gdti:0614141.12345.400")).toOption.map fun x => decide (x.hexCall [.coding .gdti96, .filter 3] [] = hexOf (x.binaryCall [.coding .gdti96, .filter 3] []))) = some false := by
      decide +kernel
    rw [e] at hx
    have hx : decide (x.hexCall [.coding .gdti96, .filter 3] [] = hexOf (x.binaryCall [.coding .gdti96, .filter 3] [])) = false := Option.some.inj hx
    exact absurd (h x [.coding .gdti96, .filter 3] []).1 (of_decide_eq_false hx)

/-- Whatever the positional arguments are, the keyword arguments decide. -/
theorem C76_gdti_partial (x : GDTI) (pos : List (Arg GDTI.Coding 8)) (kw : List (Str × Arg GDTI.Coding 8)) :
    (∀ cs f, Passes [(py "binary_coding_scheme", none), (py "filter_value", none)] [] kw [.coding cs, .filter f] →
      x.hexCall pos kw = x.hex cs f ∧ x.base64Call pos kw = x.base64 cs f) ∧
    ((¬ ∃ vs, Passes (α := Arg GDTI.Coding 8) [(py "binary_coding_scheme", none), (py "filter_value", none)] [] kw vs) →
      x.hexCall pos kw = .error .type ∧ x.base64Call pos kw = .error .type) := by
  constructor
  · intro cs f h
    have hb : x.binaryCall [] kw = x.binary cs f := by
      unfold GDTI.binaryCall
      rw [(bindArgs_iff (ps := GDTI.binaryParams) (by decide)).2 h, ok_bind]
      rfl
    have hh : x.hexCall pos kw = x.hex cs f := by
      unfold GDTI.hexCall hexCallOf
      rw [hb]
      rfl
    refine ⟨hh, ?_⟩
    unfold GDTI.base64Call base64CallOf hexCallOf
    rw [hb]
    rfl
  · intro h
    have hb : x.binaryCall [] kw = .error .type := by
      unfold GDTI.binaryCall
      rw [bindArgs_none (ps := GDTI.binaryParams) (by decide) h, error_bind]
    constructor
    · unfold GDTI.hexCall hexCallOf
      rw [hb]
      rfl
    · unfold GDTI.base64Call base64CallOf hexCallOf
      rw [hb]
      rfl

theorem C76_cpi_claim_false : ¬ ∀ (x : CPI) (pos : List (Arg CPI.Coding 8)) (kw : List (Str × Arg CPI.Coding 8)),
    x.hexCall pos kw = hexOf (x.binaryCall pos kw) ∧ x.base64Call pos kw = base64Of (x.binaryCall pos kw) := by
  intro h
  cases e : CPI.new (py "urn:epc:id:cpi:0614141.123456.123456789") with
  | error _ =>
    have hx : (CPI.new (py "urn:epc:id:cpi:0614141.123456.123456789")).toBool = true := by decide +kernel
    rw [e] at hx; exact Bool.noConfusion hx
  | ok x =>
    have hx : ((CPI.new (py "urn:epc:id:cpi:0614141.123456.123456789")).toOption.map fun x => decide (x.hexCall [.coding .cpi96, .filter 3] [] = hexOf (x.binaryCall [.coding .cpi96, .filter 3] []))) = some false := by
      decide +kernel
    rw [e] at hx
    have hx : decide (x.hexCall [.coding .cpi96, .filter 3] [] = hexOf (x.binaryCall [.coding .cpi96, .filter 3] [])) = false := Option.some.inj hx
    exact absurd (h x [.coding .cpi96, .filter 3] []).1 (of_decide_eq_false hx)

/-- Whatever the positional arguments are, the keyword arguments decide. -/
theorem C76_cpi_partial (x : CPI) (pos : List (Arg CPI.Coding 8)) (kw : List (Str × Arg CPI.Coding 8)) :
    (∀ cs f, Passes [(py "binary_coding_scheme", none), (py "filter_value", none)] [] kw [.coding cs, .filter f] →
      x.hexCall pos kw = x.hex cs f ∧ x.base64Call pos kw = x.base64 cs f) ∧
    ((¬ ∃ vs, Passes (α := Arg CPI.Coding 8) [(py "binary_coding_scheme", none), (py "filter_value", none)] [] kw vs) →
      x.hexCall pos kw = .error .type ∧ x.base64Call pos kw = .error .type) := by
  constructor
  · intro cs f h
    have hb : x.binaryCall [] kw = x.binary cs f := by
      unfold CPI.binaryCall
      rw [(bindArgs_iff (ps := CPI.binaryParams) (by decide)).2 h, ok_bind]
      rfl
    have hh : x.hexCall pos kw = x.hex cs f := by
      unfold CPI.hexCall hexCallOf
      rw [hb]
      rfl
    refine ⟨hh, ?_⟩
    unfold CPI.base64Call base64CallOf hexCallOf
    rw [hb]
    rfl
  · intro h
    have hb : x.binaryCall [] kw = .error .type := by
      unfold CPI.binaryCall
      rw [bindArgs_none (ps := CPI.binaryParams) (by decide) h, error_bind]
    constructor
    · unfold CPI.hexCall hexCallOf
      rw [hb]
      rfl
    · unfold CPI.base64Call base64CallOf hexCallOf
      rw [hb]
      rfl

theorem C76_sgcn_claim_false : ¬ ∀ (x : SGCN) (pos : List (Arg SGCN.Coding 8)) (kw : List (Str × Arg SGCN.Coding 8)),
    x.hexCall pos kw = hexOf (x.binaryCall pos kw) ∧ x.base64Call pos kw = base64Of (x.binaryCall pos kw) := by
  intro h
  cases e : SGCN.new (py "urn:epc:id:sgcn:4012345.67890.04711") with
  | error _ =>
    have hx : (SGCN.new (py "urn:epc:id:sgcn:4012345.67890.04711")).toBool = true := by decide +kernel
    rw [e] at hx; exact Bool.noConfusion hx
  | ok x =>
    have hx : ((SGCN.new (py "urn:epc:id:sgcn:4012345.67890.04711")).toOption.map fun x => decide (x.hexCall [.filter 3, .coding .sgcn96] [] = hexOf (x.binaryCall [.filter 3, .coding .sgcn96] []))) = some false := by
      decide +kernel
    rw [e] at hx
    have hx : decide (x.hexCall [.filter 3, .coding .sgcn96] [] = hexOf (x.binaryCall [.filter 3, .coding .sgcn96] [])) = false := Option.some.inj hx
    exact absurd (h x [.filter 3, .coding .sgcn96] []).1 (of_decide_eq_false hx)

/-- Whatever the positional arguments are, the keyword arguments decide. -/
theorem C76_sgcn_partial (x : SGCN) (pos : List (Arg SGCN.Coding 8)) (kw : List (Str × Arg SGCN.Coding 8)) :
    (∀ cs f, Passes [(py "filter_value", none), (py "binary_coding_scheme", some (.coding .sgcn96))] [] kw [.filter f, .coding cs] →
      x.hexCall pos kw = x.hex cs f ∧ x.base64Call pos kw = x.base64 cs f) ∧
    ((¬ ∃ vs, Passes (α := Arg SGCN.Coding 8) [(py "filter_value", none), (py "binary_coding_scheme", some (.coding .sgcn96))] [] kw vs) →
      x.hexCall pos kw = .error .type ∧ x.base64Call pos kw = .error .type) := by
  constructor
  · intro cs f h
    have hb : x.binaryCall [] kw = x.binary cs f := by
      unfold SGCN.binaryCall
      rw [(bindArgs_iff (ps := SGCN.binaryParams) (by decide)).2 h, ok_bind]
      rfl
    have hh : x.hexCall pos kw = x.hex cs f := by
      unfold SGCN.hexCall hexCallOf
      rw [hb]
      rfl
    refine ⟨hh, ?_⟩
    unfold SGCN.base64Call base64CallOf hexCallOf
    rw [hb]
    rfl
  · intro h
    have hb : x.binaryCall [] kw = .error .type := by
      unfold SGCN.binaryCall
      rw [bindArgs_none (ps := SGCN.binaryParams) (by decide) h, error_bind]
    constructor
    · unfold SGCN.hexCall hexCallOf
      rw [hb]
      rfl
    · unfold SGCN.base64Call base64CallOf hexCallOf
      rw [hb]
      rfl

theorem C76_usdod_claim_false : ¬ ∀ (x : USDOD) (pos : List (Arg USDOD.Coding 16)) (kw : List (Str × Arg USDOD.Coding 16)),
    x.hexCall pos kw = hexOf (x.binaryCall pos kw) ∧ x.base64Call pos kw = base64Of (x.binaryCall pos kw) := by
  intro h
  cases e : USDOD.new (py "urn:epc:id:usdod:2S194.12345678901") with
  | error _ =>
    have hx : (USDOD.new (py "urn:epc:id:usdod:2S194.12345678901")).toBool = true := by decide +kernel
    rw [e] at hx; exact Bool.noConfusion hx
  | ok x =>
    have hx : ((USDOD.new (py "urn:epc:id:usdod:2S194.12345678901")).toOption.map fun x => decide (x.hexCall [.filter 3, .coding .usdod96] [] = hexOf (x.binaryCall [.filter 3, .coding .usdod96] []))) = some false := by
      decide +kernel
    rw [e] at hx
    have hx : decide (x.hexCall [.filter 3, .coding .usdod96] [] = hexOf (x.binaryCall [.filter 3, .coding .usdod96] [])) = false := Option.some.inj hx
    exact absurd (h x [.filter 3, .coding .usdod96] []).1 (of_decide_eq_false hx)

/-- Whatever the positional arguments are, the keyword arguments decide. -/
theorem C76_usdod_partial (x : USDOD) (pos : List (Arg USDOD.Coding 16)) (kw : List (Str × Arg USDOD.Coding 16)) :
    (∀ cs f, Passes [(py "filter_value", none), (py "binary_coding_scheme", some (.coding .usdod96))] [] kw [.filter f, .coding cs] →
      x.hexCall pos kw = x.hex cs f ∧ x.base64Call pos kw = x.base64 cs f) ∧
    ((¬ ∃ vs, Passes (α := Arg USDOD.Coding 16) [(py "filter_value", none), (py "binary_coding_scheme", some (.coding .usdod96))] [] kw vs) →
      x.hexCall pos kw = .error .type ∧ x.base64Call pos kw = .error .type) := by
  constructor
  · intro cs f h
    have hb : x.binaryCall [] kw = x.binary cs f := by
      unfold USDOD.binaryCall
      rw [(bindArgs_iff (ps := USDOD.binaryParams) (by decide)).2 h, ok_bind]
      rfl
    have hh : x.hexCall pos kw = x.hex cs f := by
      unfold USDOD.hexCall hexCallOf
      rw [hb]
      rfl
    refine ⟨hh, ?_⟩
    unfold USDOD.base64Call base64CallOf hexCallOf
    rw [hb]
    rfl
  · intro h
    have hb : x.binaryCall [] kw = .error .type := by
      unfold USDOD.binaryCall
      rw [bindArgs_none (ps := USDOD.binaryParams) (by decide) h, error_bind]
    constructor
    · unfold USDOD.hexCall hexCallOf
      rw [hb]
      rfl
    · unfold USDOD.base64Call base64CallOf hexCallOf
      rw [hb]
      rfl

theorem C76_adi_claim_false : ¬ ∀ (x : ADI) (pos : List (Arg ADI.Coding 64)) (kw : List (Str × Arg ADI.Coding 64)),
    x.hexCall pos kw = hexOf (x.binaryCall pos kw) ∧ x.base64Call pos kw = base64Of (x.binaryCall pos kw) := by
  intro h
  cases e : ADI.new (py "urn:epc:id:adi:35962.PQ7VZ4.M37GXB92") with
  | error _ =>
    have hx : (ADI.new (py "urn:epc:id:adi:35962.PQ7VZ4.M37GXB92")).toBool = true := by decide +kernel
    rw [e] at hx; exact Bool.noConfusion hx
  | ok x =>
    have hx : ((ADI.new (py "urn:epc:id:adi:35962.PQ7VZ4.M37GXB92")).toOption.map fun x => decide (x.hexCall [.filter 3, .coding .adiVar] [] = hexOf (x.binaryCall [.filter 3, .coding .adiVar] []))) = some false := by
      decide +kernel
    rw [e] at hx
    have hx : decide (x.hexCall [.filter 3, .coding .adiVar] [] = hexOf (x.binaryCall [.filter 3, .coding .adiVar] [])) = false := Option.some.inj hx
    exact absurd (h x [.filter 3, .coding .adiVar] []).1 (of_decide_eq_false hx)

/-- Whatever the positional arguments are, the keyword arguments decide. -/
theorem C76_adi_partial (x : ADI) (pos : List (Arg ADI.Coding 64)) (kw : List (Str × Arg ADI.Coding 64)) :
    (∀ cs f, Passes [(py "filter_value", none), (py "binary_coding_scheme", some (.coding .adiVar))] [] kw [.filter f, .coding cs] →
      x.hexCall pos kw = x.hex cs f ∧ x.base64Call pos kw = x.base64 cs f) ∧
    ((¬ ∃ vs, Passes (α := Arg ADI.Coding 64) [(py "filter_value", none), (py "binary_coding_scheme", some (.coding .adiVar))] [] kw vs) →
      x.hexCall pos kw = .error .type ∧ x.base64Call pos kw = .error .type) := by
  constructor
  · intro cs f h
    have hb : x.binaryCall [] kw = x.binary cs f := by
      unfold ADI.binaryCall
      rw [(bindArgs_iff (ps := ADI.binaryParams) (by decide)).2 h, ok_bind]
      rfl
    have hh : x.hexCall pos kw = x.hex cs f := by
      unfold ADI.hexCall hexCallOf
      rw [hb]
      rfl
    refine ⟨hh, ?_⟩
    unfold ADI.base64Call base64CallOf hexCallOf
    rw [hb]
    rfl
  · intro h
    have hb : x.binaryCall [] kw = .error .type := by
      unfold ADI.binaryCall
      rw [bindArgs_none (ps := ADI.binaryParams) (by decide) h, error_bind]
    constructor
    · unfold ADI.hexCall hexCallOf
      rw [hb]
      rfl
    · unfold ADI.base64Call base64CallOf hexCallOf
      rw [hb]
      rfl

theorem C76_itip_claim_false : ¬ ∀ (x : ITIP) (pos : List (Arg ITIP.Coding 8)) (kw : List (Str × Arg ITIP.Coding 8)),
    x.hexCall pos kw = hexOf (x.binaryCall pos kw) ∧ x.base64Call pos kw = base64Of (x.binaryCall pos kw) := by
  intro h
  cases e : ITIP.new (py "urn:epc:id:itip:4012345.012345.01.02.987") with
  | error _ =>
    have hx : (ITIP.new (py "urn:epc:id:itip:4012345.012345.01.02.987")).toBool = true := by decide +kernel
    rw [e] at hx; exact Bool.noConfusion hx
  | ok x =>
    have hx : ((ITIP.new (py "urn:epc:id:itip:4012345.012345.01.02.987")).toOption.map fun x => decide (x.hexCall [.filter 3, .coding .itip110] [] = hexOf (x.binaryCall [.filter 3, .coding .itip110] []))) = some false := by
      decide +kernel
    rw [e] at hx
    have hx : decide (x.hexCall [.filter 3, .coding .itip110] [] = hexOf (x.binaryCall [.filter 3, .coding .itip110] [])) = false := Option.some.inj hx
    exact absurd (h x [.filter 3, .coding .itip110] []).1 (of_decide_eq_false hx)

/-- Whatever the positional arguments are, the keyword arguments decide. -/
theorem C76_itip_partial (x : ITIP) (pos : List (Arg ITIP.Coding 8)) (kw : List (Str × Arg ITIP.Coding 8)) :
    (∀ cs f, Passes [(py "filter_value", none), (py "binary_coding_scheme", none)] [] kw [.filter f, .coding cs] →
      x.hexCall pos kw = x.hex cs f ∧ x.base64Call pos kw = x.base64 cs f) ∧
    ((¬ ∃ vs, Passes (α := Arg ITIP.Coding 8) [(py "filter_value", none), (py "binary_coding_scheme", none)] [] kw vs) →
      x.hexCall pos kw = .error .type ∧ x.base64Call pos kw = .error .type) := by
  constructor
  · intro cs f h
    have hb : x.binaryCall [] kw = x.binary cs f := by
      unfold ITIP.binaryCall
      rw [(bindArgs_iff (ps := ITIP.binaryParams) (by decide)).2 h, ok_bind]
      rfl
    have hh : x.hexCall pos kw = x.hex cs f := by
      unfold ITIP.hexCall hexCallOf
      rw [hb]
      rfl
    refine ⟨hh, ?_⟩
    unfold ITIP.base64Call base64CallOf hexCallOf
    rw [hb]
    rfl
  · intro h
    have hb : x.binaryCall [] kw = .error .type := by
      unfold ITIP.binaryCall
      rw [bindArgs_none (ps := ITIP.binaryParams) (by decide) h, error_bind]
    constructor
    · unfold ITIP.hexCall hexCallOf
      rw [hb]
      rfl
    · unfold ITIP.base64Call base64CallOf hexCallOf
      rw [hb]
      rfl

theorem C76_gid_claim_false : ¬ ∀ (x : GID) (pos : List GID.Coding) (kw : List (Str × GID.Coding)),
    x.hexCall pos kw = hexOf (x.binaryCall pos kw) ∧ x.base64Call pos kw = base64Of (x.binaryCall pos kw) := by
  intro h
  cases e : GID.new (py "urn:epc:id:gid:31415.271828.1414") with
  | error _ =>
    have hx : (GID.new (py "urn:epc:id:gid:31415.271828.1414")).toBool = true := by decide +kernel
    rw [e] at hx; exact Bool.noConfusion hx
  | ok x =>
    have hx : ((GID.new (py "urn:epc:id:gid:31415.271828.1414")).toOption.map fun x => decide (x.hexCall [.gid96, .gid96] [] = hexOf (x.binaryCall [.gid96, .gid96] []))) = some false := by
      decide +kernel
    rw [e] at hx
    have hx : decide (x.hexCall [.gid96, .gid96] [] = hexOf (x.binaryCall [.gid96, .gid96] [])) = false := Option.some.inj hx
    exact absurd (h x [.gid96, .gid96] []).1 (of_decide_eq_false hx)

theorem C76_gid_partial (x : GID) (pos : List GID.Coding) (kw : List (Str × GID.Coding)) :
    (∀ cs, Passes [(py "binary_coding_scheme", some .gid96)] [] kw [cs] →
      x.hexCall pos kw = x.hex cs ∧ x.base64Call pos kw = x.base64 cs) ∧
    ((¬ ∃ vs, Passes [(py "binary_coding_scheme", some GID.Coding.gid96)] [] kw vs) →
      x.hexCall pos kw = .error .type ∧ x.base64Call pos kw = .error .type) := by
  constructor
  · intro cs h
    have hb : x.binaryCall [] kw = x.binary cs := by
      unfold GID.binaryCall
      rw [(bindArgs_iff (ps := GID.binaryParams) (by decide)).2 h, ok_bind]
    have hh : x.hexCall pos kw = x.hex cs := by
      unfold GID.hexCall hexCallOf
      rw [hb]
      rfl
    refine ⟨hh, ?_⟩
    unfold GID.base64Call base64CallOf hexCallOf
    rw [hb]
    rfl
  · intro h
    have hb : x.binaryCall [] kw = .error .type := by
      unfold GID.binaryCall
      rw [bindArgs_none (ps := GID.binaryParams) (by decide) h, error_bind]
    constructor
    · unfold GID.hexCall hexCallOf
      rw [hb]
      rfl
    · unfold GID.base64Call base64CallOf hexCallOf
      rw [hb]
      rfl

/-! ### C77: `tag_uri` and `binary` take the same arguments in the same order -/

theorem C77_sgtin (x : SGTIN) (pos : List (Arg SGTIN.Coding 8)) (kw : List (Str × Arg SGTIN.Coding 8)) :
    (∀ cs f, Passes [(py "binary_coding_scheme", none), (py "filter_value", none)] pos kw [.coding cs, .filter f] →
      x.tagUriCall pos kw = x.tagUri cs f ∧ x.binaryCall pos kw = x.binary cs f) ∧
    ((¬ ∃ vs, Passes (α := Arg SGTIN.Coding 8) [(py "binary_coding_scheme", none), (py "filter_value", none)] pos kw vs) →
      x.tagUriCall pos kw = .error .type ∧ x.binaryCall pos kw = .error .type) := by
  refine ⟨fun cs f h => ⟨?_, ?_⟩, fun h => ⟨?_, ?_⟩⟩
  · unfold SGTIN.tagUriCall
    rw [(bindArgs_iff (ps := SGTIN.tagUriParams) (by decide)).2 h, ok_bind]
    dsimp only
    rw [tagUriBody_typed]
    unfold SGTIN.tagUri
    refine congrArg _ (funext fun bad => ?_)
    cases bad <;> simp [pure_ok]
  · unfold SGTIN.binaryCall
    rw [(bindArgs_iff (ps := SGTIN.binaryParams) (by decide)).2 h, ok_bind]
    rfl
  · unfold SGTIN.tagUriCall
    rw [bindArgs_none (ps := SGTIN.tagUriParams) (by decide) h, error_bind]
  · unfold SGTIN.binaryCall
    rw [bindArgs_none (ps := SGTIN.binaryParams) (by decide) h, error_bind]

theorem C77_sscc (x : SSCC) (pos : List (Arg SSCC.Coding 8)) (kw : List (Str × Arg SSCC.Coding 8)) :
    (∀ cs f, Passes [(py "filter_value", none), (py "binary_coding_scheme", some (.coding .sscc96))] pos kw [.filter f, .coding cs] →
      x.tagUriCall pos kw = x.tagUri cs f ∧ x.binaryCall pos kw = x.binary cs f) ∧
    ((¬ ∃ vs, Passes (α := Arg SSCC.Coding 8) [(py "filter_value", none), (py "binary_coding_scheme", some (.coding .sscc96))] pos kw vs) →
      x.tagUriCall pos kw = .error .type ∧ x.binaryCall pos kw = .error .type) := by
  refine ⟨fun cs f h => ⟨?_, ?_⟩, fun h => ⟨?_, ?_⟩⟩
  · unfold SSCC.tagUriCall
    rw [(bindArgs_iff (ps := SSCC.tagUriParams) (by decide)).2 h, ok_bind]
    dsimp only
    rw [tagUriBody_typed]
    unfold SSCC.tagUri
    simp [ok_bind]
  · unfold SSCC.binaryCall
    rw [(bindArgs_iff (ps := SSCC.binaryParams) (by decide)).2 h, ok_bind]
    rfl
  · unfold SSCC.tagUriCall
    rw [bindArgs_none (ps := SSCC.tagUriParams) (by decide) h, error_bind]
  · unfold SSCC.binaryCall
    rw [bindArgs_none (ps := SSCC.binaryParams) (by decide) h, error_bind]

theorem C77_sgln (x : SGLN) (pos : List (Arg SGLN.Coding 8)) (kw : List (Str × Arg SGLN.Coding 8)) :
    (∀ cs f, Passes [(py "binary_coding_scheme", none), (py "filter_value", none)] pos kw [.coding cs, .filter f] →
      x.tagUriCall pos kw = x.tagUri cs f ∧ x.binaryCall pos kw = x.binary cs f) ∧
    ((¬ ∃ vs, Passes (α := Arg SGLN.Coding 8) [(py "binary_coding_scheme", none), (py "filter_value", none)] pos kw vs) →
      x.tagUriCall pos kw = .error .type ∧ x.binaryCall pos kw = .error .type) := by
  refine ⟨fun cs f h => ⟨?_, ?_⟩, fun h => ⟨?_, ?_⟩⟩
  · unfold SGLN.tagUriCall
    rw [(bindArgs_iff (ps := SGLN.tagUriParams) (by decide)).2 h, ok_bind]
    dsimp only
    rw [tagUriBody_typed]
    unfold SGLN.tagUri
    refine congrArg _ (funext fun bad => ?_)
    cases bad <;> simp [pure_ok]
  · unfold SGLN.binaryCall
    rw [(bindArgs_iff (ps := SGLN.binaryParams) (by decide)).2 h, ok_bind]
    rfl
  · unfold SGLN.tagUriCall
    rw [bindArgs_none (ps := SGLN.tagUriParams) (by decide) h, error_bind]
  · unfold SGLN.binaryCall
    rw [bindArgs_none (ps := SGLN.binaryParams) (by decide) h, error_bind]

theorem C77_grai (x : GRAI) (pos : List (Arg GRAI.Coding 8)) (kw : List (Str × Arg GRAI.Coding 8)) :
    (∀ cs f, Passes [(py "binary_coding_scheme", none), (py "filter_value", none)] pos kw [.coding cs, .filter f] →
      x.tagUriCall pos kw = x.tagUri cs f ∧ x.binaryCall pos kw = x.binary cs f) ∧
    ((¬ ∃ vs, Passes (α := Arg GRAI.Coding 8) [(py "binary_coding_scheme", none), (py "filter_value", none)] pos kw vs) →
      x.tagUriCall pos kw = .error .type ∧ x.binaryCall pos kw = .error .type) := by
  refine ⟨fun cs f h => ⟨?_, ?_⟩, fun h => ⟨?_, ?_⟩⟩
  · unfold GRAI.tagUriCall
    rw [(bindArgs_iff (ps := GRAI.tagUriParams) (by decide)).2 h, ok_bind]
    dsimp only
    rw [tagUriBody_typed]
    unfold GRAI.tagUri
    refine congrArg _ (funext fun bad => ?_)
    cases bad <;> simp [pure_ok]
  · unfold GRAI.binaryCall
    rw [(bindArgs_iff (ps := GRAI.binaryParams) (by decide)).2 h, ok_bind]
    rfl
  · unfold GRAI.tagUriCall
    rw [bindArgs_none (ps := GRAI.tagUriParams) (by decide) h, error_bind]
  · unfold GRAI.binaryCall
    rw [bindArgs_none (ps := GRAI.binaryParams) (by decide) h, error_bind]

theorem C77_giai (x : GIAI) (pos : List (Arg GIAI.Coding 8)) (kw : List (Str × Arg GIAI.Coding 8)) :
    (∀ cs f, Passes [(py "binary_coding_scheme", none), (py "filter_value", none)] pos kw [.coding cs, .filter f] →
      x.tagUriCall pos kw = x.tagUri cs f ∧ x.binaryCall pos kw = x.binary cs f) ∧
    ((¬ ∃ vs, Passes (α := Arg GIAI.Coding 8) [(py "binary_coding_scheme", none), (py "filter_value", none)] pos kw vs) →
      x.tagUriCall pos kw = .error .type ∧ x.binaryCall pos kw = .error .type) := by
  refine ⟨fun cs f h => ⟨?_, ?_⟩, fun h => ⟨?_, ?_⟩⟩
  · unfold GIAI.tagUriCall
    rw [(bindArgs_iff (ps := GIAI.tagUriParams) (by decide)).2 h, ok_bind]
    dsimp only
    rw [tagUriBody_typed]
    unfold GIAI.tagUri
    refine congrArg _ (funext fun bad => ?_)
    cases bad <;> simp [pure_ok]
  · unfold GIAI.binaryCall
    rw [(bindArgs_iff (ps := GIAI.binaryParams) (by decide)).2 h, ok_bind]
    rfl
  · unfold GIAI.tagUriCall
    rw [bindArgs_none (ps := GIAI.tagUriParams) (by decide) h, error_bind]
  · unfold GIAI.binaryCall
    rw [bindArgs_none (ps := GIAI.binaryParams) (by decide) h, error_bind]

theorem C77_gsrn (x : GSRN) (pos : List (Arg GSRN.Coding 8)) (kw : List (Str × Arg GSRN.Coding 8)) :
    (∀ cs f, Passes [(py "binary_coding_scheme", some (.coding .gsrn96)), (py "filter_value", some (.filter 0))] pos kw [.coding cs, .filter f] →
      x.tagUriCall pos kw = x.tagUri cs f ∧ x.binaryCall pos kw = x.binary cs f) ∧
    ((¬ ∃ vs, Passes (α := Arg GSRN.Coding 8) [(py "binary_coding_scheme", some (.coding .gsrn96)), (py "filter_value", some (.filter 0))] pos kw vs) →
      x.tagUriCall pos kw = .error .type ∧ x.binaryCall pos kw = .error .type) := by
  refine ⟨fun cs f h => ⟨?_, ?_⟩, fun h => ⟨?_, ?_⟩⟩
  · unfold GSRN.tagUriCall
    rw [(bindArgs_iff (ps := GSRN.tagUriParams) (by decide)).2 h, ok_bind]
    dsimp only
    rw [tagUriBody_typed]
    unfold GSRN.tagUri
    simp [ok_bind]
  · unfold GSRN.binaryCall
    rw [(bindArgs_iff (ps := GSRN.binaryParams) (by decide)).2 h, ok_bind]
    rfl
  · unfold GSRN.tagUriCall
    rw [bindArgs_none (ps := GSRN.tagUriParams) (by decide) h, error_bind]
  · unfold GSRN.binaryCall
    rw [bindArgs_none (ps := GSRN.binaryParams) (by decide) h, error_bind]

theorem C77_gsrnp (x : GSRNP) (pos : List (Arg GSRNP.Coding 8)) (kw : List (Str × Arg GSRNP.Coding 8)) :
    (∀ cs f, Passes [(py "binary_coding_scheme", some (.coding .gsrnp96)), (py "filter_value", some (.filter 0))] pos kw [.coding cs, .filter f] →
      x.tagUriCall pos kw = x.tagUri cs f ∧ x.binaryCall pos kw = x.binary cs f) ∧
    ((¬ ∃ vs, Passes (α := Arg GSRNP.Coding 8) [(py "binary_coding_scheme", some (.coding .gsrnp96)), (py "filter_value", some (.filter 0))] pos kw vs) →
      x.tagUriCall pos kw = .error .type ∧ x.binaryCall pos kw = .error .type) := by
  refine ⟨fun cs f h => ⟨?_, ?_⟩, fun h => ⟨?_, ?_⟩⟩
  · unfold GSRNP.tagUriCall
    rw [(bindArgs_iff (ps := GSRNP.tagUriParams) (by decide)).2 h, ok_bind]
    dsimp only
    rw [tagUriBody_typed]
    unfold GSRNP.tagUri
    simp [ok_bind]
  · unfold GSRNP.binaryCall
    rw [(bindArgs_iff (ps := GSRNP.binaryParams) (by decide)).2 h, ok_bind]
    rfl
  · unfold GSRNP.tagUriCall
    rw [bindArgs_none (ps := GSRNP.tagUriParams) (by decide) h, error_bind]
  · unfold GSRNP.binaryCall
    rw [bindArgs_none (ps := GSRNP.binaryParams) (by decide) h, error_bind]

theorem C77_gdti (x : GDTI) (pos : List (Arg GDTI.Coding 8)) (kw : List (Str × Arg GDTI.Coding 8)) :
    (∀ cs f, Passes [(py "binary_coding_scheme", none), (py "filter_value", none)] pos kw [.coding cs, .filter f] →
      x.tagUriCall pos kw = x.tagUri cs f ∧ x.binaryCall pos kw = x.binary cs f) ∧
    ((¬ ∃ vs, Passes (α := Arg GDTI.Coding 8) [(py "binary_coding_scheme", none), (py "filter_value", none)] pos kw vs) →
      x.tagUriCall pos kw = .error .type ∧ x.binaryCall pos kw = .error .type) := by
  refine ⟨fun cs f h => ⟨?_, ?_⟩, fun h => ⟨?_, ?_⟩⟩
  · unfold GDTI.tagUriCall
    rw [(bindArgs_iff (ps := GDTI.tagUriParams) (by decide)).2 h, ok_bind]
    dsimp only
    rw [tagUriBody_typed]
    unfold GDTI.tagUri
    refine congrArg _ (funext fun bad => ?_)
    cases bad <;> simp [pure_ok]
  · unfold GDTI.binaryCall
    rw [(bindArgs_iff (ps := GDTI.binaryParams) (by decide)).2 h, ok_bind]
    rfl
  · unfold GDTI.tagUriCall
    rw [bindArgs_none (ps := GDTI.tagUriParams) (by decide) h, error_bind]
  · unfold GDTI.binaryCall
    rw [bindArgs_none (ps := GDTI.binaryParams) (by decide) h, error_bind]

theorem C77_cpi (x : CPI) (pos : List (Arg CPI.Coding 8)) (kw : List (Str × Arg CPI.Coding 8)) :
    (∀ cs f, Passes [(py "binary_coding_scheme", none), (py "filter_value", none)] pos kw [.coding cs, .filter f] →
      x.tagUriCall pos kw = x.tagUri cs f ∧ x.binaryCall pos kw = x.binary cs f) ∧
    ((¬ ∃ vs, Passes (α := Arg CPI.Coding 8) [(py "binary_coding_scheme", none), (py "filter_value", none)] pos kw vs) →
      x.tagUriCall pos kw = .error .type ∧ x.binaryCall pos kw = .error .type) := by
  refine ⟨fun cs f h => ⟨?_, ?_⟩, fun h => ⟨?_, ?_⟩⟩
  · unfold CPI.tagUriCall
    rw [(bindArgs_iff (ps := CPI.tagUriParams) (by decide)).2 h, ok_bind]
    dsimp only
    rw [tagUriBody_typed]
    unfold CPI.tagUri
    refine congrArg _ (funext fun bad => ?_)
    cases bad <;> simp [pure_ok]
  · unfold CPI.binaryCall
    rw [(bindArgs_iff (ps := CPI.binaryParams) (by decide)).2 h, ok_bind]
    rfl
  · unfold CPI.tagUriCall
    rw [bindArgs_none (ps := CPI.tagUriParams) (by decide) h, error_bind]
  · unfold CPI.binaryCall
    rw [bindArgs_none (ps := CPI.binaryParams) (by decide) h, error_bind]

theorem C77_sgcn (x : SGCN) (pos : List (Arg SGCN.Coding 8)) (kw : List (Str × Arg SGCN.Coding 8)) :
    (∀ cs f, Passes [(py "filter_value", none), (py "binary_coding_scheme", some (.coding .sgcn96))] pos kw [.filter f, .coding cs] →
      x.tagUriCall pos kw = x.tagUri cs f ∧ x.binaryCall pos kw = x.binary cs f) ∧
    ((¬ ∃ vs, Passes (α := Arg SGCN.Coding 8) [(py "filter_value", none), (py "binary_coding_scheme", some (.coding .sgcn96))] pos kw vs) →
      x.tagUriCall pos kw = .error .type ∧ x.binaryCall pos kw = .error .type) := by
  refine ⟨fun cs f h => ⟨?_, ?_⟩, fun h => ⟨?_, ?_⟩⟩
  · unfold SGCN.tagUriCall
    rw [(bindArgs_iff (ps := SGCN.tagUriParams) (by decide)).2 h, ok_bind]
    dsimp only
    rw [tagUriBody_typed]
    unfold SGCN.tagUri
    simp [ok_bind]
  · unfold SGCN.binaryCall
    rw [(bindArgs_iff (ps := SGCN.binaryParams) (by decide)).2 h, ok_bind]
    rfl
  · unfold SGCN.tagUriCall
    rw [bindArgs_none (ps := SGCN.tagUriParams) (by decide) h, error_bind]
  · unfold SGCN.binaryCall
    rw [bindArgs_none (ps := SGCN.binaryParams) (by decide) h, error_bind]

theorem C77_usdod (x : USDOD) (pos : List (Arg USDOD.Coding 16)) (kw : List (Str × Arg USDOD.Coding 16)) :
    (∀ cs f, Passes [(py "filter_value", none), (py "binary_coding_scheme", some (.coding .usdod96))] pos kw [.filter f, .coding cs] →
      x.tagUriCall pos kw = x.tagUri cs f ∧ x.binaryCall pos kw = x.binary cs f) ∧
    ((¬ ∃ vs, Passes (α := Arg USDOD.Coding 16) [(py "filter_value", none), (py "binary_coding_scheme", some (.coding .usdod96))] pos kw vs) →
      x.tagUriCall pos kw = .error .type ∧ x.binaryCall pos kw = .error .type) := by
  refine ⟨fun cs f h => ⟨?_, ?_⟩, fun h => ⟨?_, ?_⟩⟩
  · unfold USDOD.tagUriCall
    rw [(bindArgs_iff (ps := USDOD.tagUriParams) (by decide)).2 h, ok_bind]
    dsimp only
    rw [tagUriBody_typed]
    unfold USDOD.tagUri
    simp [ok_bind]
  · unfold USDOD.binaryCall
    rw [(bindArgs_iff (ps := USDOD.binaryParams) (by decide)).2 h, ok_bind]
    rfl
  · unfold USDOD.tagUriCall
    rw [bindArgs_none (ps := USDOD.tagUriParams) (by decide) h, error_bind]
  · unfold USDOD.binaryCall
    rw [bindArgs_none (ps := USDOD.binaryParams) (by decide) h, error_bind]

theorem C77_adi (x : ADI) (pos : List (Arg ADI.Coding 64)) (kw : List (Str × Arg ADI.Coding 64)) :
    (∀ cs f, Passes [(py "filter_value", none), (py "binary_coding_scheme", some (.coding .adiVar))] pos kw [.filter f, .coding cs] →
      x.tagUriCall pos kw = x.tagUri cs f ∧ x.binaryCall pos kw = x.binary cs f) ∧
    ((¬ ∃ vs, Passes (α := Arg ADI.Coding 64) [(py "filter_value", none), (py "binary_coding_scheme", some (.coding .adiVar))] pos kw vs) →
      x.tagUriCall pos kw = .error .type ∧ x.binaryCall pos kw = .error .type) := by
  refine ⟨fun cs f h => ⟨?_, ?_⟩, fun h => ⟨?_, ?_⟩⟩
  · unfold ADI.tagUriCall
    rw [(bindArgs_iff (ps := ADI.tagUriParams) (by decide)).2 h, ok_bind]
    dsimp only
    rw [tagUriBody_typed]
    unfold ADI.tagUri
    simp [ok_bind]
  · unfold ADI.binaryCall
    rw [(bindArgs_iff (ps := ADI.binaryParams) (by decide)).2 h, ok_bind]
    rfl
  · unfold ADI.tagUriCall
    rw [bindArgs_none (ps := ADI.tagUriParams) (by decide) h, error_bind]
  · unfold ADI.binaryCall
    rw [bindArgs_none (ps := ADI.binaryParams) (by decide) h, error_bind]

/-- `tag_uri(scheme, filter)` is right, `binary(scheme, filter)` raises KeyError. -/
theorem C77_itip_claim_false : ¬ ∀ (x : ITIP) (pos : List (Arg ITIP.Coding 8)) (kw : List (Str × Arg ITIP.Coding 8)) cs f, Passes [(py "binary_coding_scheme", none), (py "filter_value", none)] pos kw [.coding cs, .filter f] →
    x.tagUriCall pos kw = x.tagUri cs f ∧ x.binaryCall pos kw = x.binary cs f := by
  intro h
  cases e : ITIP.new (py "urn:epc:id:itip:4012345.012345.01.02.987") with
  | error _ =>
    have hx : (ITIP.new (py "urn:epc:id:itip:4012345.012345.01.02.987")).toBool = true := by decide +kernel
    rw [e] at hx; exact Bool.noConfusion hx
  | ok x =>
    have hx : ((ITIP.new (py "urn:epc:id:itip:4012345.012345.01.02.987")).toOption.map fun x => decide (x.binaryCall [.coding .itip110, .filter 3] [] = x.binary .itip110 3)) = some false := by
      decide +kernel
    rw [e] at hx
    have hx : decide (x.binaryCall [.coding .itip110, .filter 3] [] = x.binary .itip110 3) = false := Option.some.inj hx
    refine absurd (h x [.coding .itip110, .filter 3] [] .itip110 3 ?_).2 (of_decide_eq_false hx)
    exact (bindArgs_iff (ps := ITIP.tagUriParams) (by decide)).1 rfl

/-- Each takes its own order; without positional arguments the two agree. -/
theorem C77_itip_partial (x : ITIP) (pos : List (Arg ITIP.Coding 8)) (kw : List (Str × Arg ITIP.Coding 8)) :
    (∀ cs f, Passes [(py "binary_coding_scheme", none), (py "filter_value", none)] pos kw [.coding cs, .filter f] → x.tagUriCall pos kw = x.tagUri cs f) ∧
    (∀ cs f, Passes [(py "filter_value", none), (py "binary_coding_scheme", none)] pos kw [.filter f, .coding cs] → x.binaryCall pos kw = x.binary cs f) ∧
    (∀ cs f, Passes [(py "binary_coding_scheme", none), (py "filter_value", none)] [] kw [.coding cs, .filter f] ↔ Passes [(py "filter_value", none), (py "binary_coding_scheme", none)] [] kw [.filter f, .coding cs]) ∧
    ((¬ ∃ vs, Passes (α := Arg ITIP.Coding 8) [(py "binary_coding_scheme", none), (py "filter_value", none)] pos kw vs) → x.tagUriCall pos kw = .error .type) ∧
    ((¬ ∃ vs, Passes (α := Arg ITIP.Coding 8) [(py "filter_value", none), (py "binary_coding_scheme", none)] pos kw vs) → x.binaryCall pos kw = .error .type) := by
  refine ⟨fun cs f h => ?_, fun cs f h => ?_, fun cs f => ?_, fun h => ?_, fun h => ?_⟩
  · unfold ITIP.tagUriCall
    rw [(bindArgs_iff (ps := ITIP.tagUriParams) (by decide)).2 h, ok_bind]
    dsimp only
    rw [tagUriBody_typed]
    unfold ITIP.tagUri
    refine congrArg _ (funext fun bad => ?_)
    cases bad <;> simp [pure_ok]
  · unfold ITIP.binaryCall
    rw [(bindArgs_iff (ps := ITIP.binaryParams) (by decide)).2 h, ok_bind]
    rfl
  · exact passes_swap
  · unfold ITIP.tagUriCall
    rw [bindArgs_none (ps := ITIP.tagUriParams) (by decide) h, error_bind]
  · unfold ITIP.binaryCall
    rw [bindArgs_none (ps := ITIP.binaryParams) (by decide) h, error_bind]

theorem C77_gid (x : GID) (pos : List GID.Coding) (kw : List (Str × GID.Coding)) :
    (∀ cs, Passes [(py "binary_coding_scheme", some .gid96)] pos kw [cs] →
      x.tagUriCall pos kw = x.tagUri cs ∧ x.binaryCall pos kw = x.binary cs) ∧
    ((¬ ∃ vs, Passes [(py "binary_coding_scheme", some GID.Coding.gid96)] pos kw vs) →
      x.tagUriCall pos kw = .error .type ∧ x.binaryCall pos kw = .error .type) := by
  refine ⟨fun cs h => ⟨?_, ?_⟩, fun h => ⟨?_, ?_⟩⟩
  · unfold GID.tagUriCall
    rw [(bindArgs_iff (ps := GID.tagUriParams) (by decide)).2 h, ok_bind]
  · unfold GID.binaryCall
    rw [(bindArgs_iff (ps := GID.binaryParams) (by decide)).2 h, ok_bind]
  · unfold GID.tagUriCall
    rw [bindArgs_none (ps := GID.tagUriParams) (by decide) h, error_bind]
  · unfold GID.binaryCall
    rw [bindArgs_none (ps := GID.binaryParams) (by decide) h, error_bind]

/-! ### Non-vacuity -/

/-- `f(SGTIN_96, filter_value=POS_ITEM)` -/
example : Passes [(py "binary_coding_scheme", none), (py "filter_value", none)] [Arg.coding SGTIN.Coding.sgtin96] [(py "filter_value", .filter (1 : Fin 8))]
    [.coding .sgtin96, .filter 1] := (bindArgs_iff (ps := SGTIN.binaryParams) (by decide)).1 rfl

/-- `f(filter_value=f, binary_coding_scheme=cs)`: the order of keyword arguments does not matter. -/
example (cs : SGTIN.Coding) (f : Fin 8) : Passes [(py "binary_coding_scheme", none), (py "filter_value", none)] []
    [(py "filter_value", Arg.filter f), (py "binary_coding_scheme", .coding cs)] [.coding cs, .filter f] :=
  (bindArgs_iff (ps := SGTIN.binaryParams) (by decide)).1 rfl

/-- `f(FILTER)`: the coding scheme of SSCC has a default value. -/
example : Passes [(py "filter_value", none), (py "binary_coding_scheme", some (.coding .sscc96))] [Arg.filter (3 : Fin 8)] []
    [.filter 3, .coding SSCC.Coding.sscc96] := (bindArgs_iff (ps := SSCC.binaryParams) (by decide)).1 rfl

/-- `f(SGTIN_96, binary_coding_scheme=SGTIN_96)`, a parameter with two values, and `f(SGTIN_96)`, a parameter without one. -/
example : (¬ ∃ vs, Passes (α := Arg SGTIN.Coding 8) [(py "binary_coding_scheme", none), (py "filter_value", none)] [.coding .sgtin96] [(py "binary_coding_scheme", .coding .sgtin96)] vs) ∧
    (¬ ∃ vs, Passes (α := Arg SGTIN.Coding 8) [(py "binary_coding_scheme", none), (py "filter_value", none)] [.coding .sgtin96] [] vs) := by
  constructor <;>
  · rintro ⟨vs, h⟩
    have h := (bindArgs_iff (ps := SGTIN.binaryParams) (by decide)).2 h
    cases h

end Epc
