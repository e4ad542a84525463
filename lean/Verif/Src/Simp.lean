/-
Rules of symbolic execution: the equations of the interpreter, and the laws of `M`.
-/
import Verif.Src.Interp
import Verif.Src.Attr

namespace Epc.Src

/-! ### The monad -/

@[src] theorem m_ok_bind {α β : Type} (a : α) (f : α → M β) : ((Except.ok a : M α) >>= f) = f a := rfl
@[src] theorem m_error_bind {α β : Type} (e : Exn) (f : α → M β) : ((Except.error e : M α) >>= f) = .error e := rfl
@[src] theorem m_pure {α : Type} (a : α) : (pure a : M α) = .ok a := rfl
@[src] theorem m_map {α β : Type} (f : α → β) (x : M α) : x.map f = x >>= fun a => .ok (f a) := by cases x <;> rfl
@[src] theorem m_assoc {α β γ : Type} (x : M α) (f : α → M β) (g : β → M γ) : (x >>= f) >>= g = x >>= fun a => f a >>= g := by cases x <;> rfl
@[src] theorem m_bind_ok {α : Type} (x : M α) : (x >>= fun a => Except.ok a) = x := by cases x <;> rfl
@[src] theorem m_ite {α β : Type} (c : Prop) [Decidable c] (x y : M α) (f : α → M β) :
    ((if c then x else y) >>= f) = if c then x >>= f else y >>= f := by split <;> rfl

@[src] theorem lift_ok {α : Type} (a : α) : lift (.ok a) = .ok a := rfl
@[src] theorem lift_pure {α : Type} (a : α) : lift (pure a) = .ok a := rfl
@[src] theorem lift_error {α : Type} (e : Err) : (lift (.error e) : M α) = .error (.err e) := rfl
@[src] theorem lift_bind {α β : Type} (x : Except Err α) (f : α → Except Err β) : lift (x >>= f) = lift x >>= fun a => lift (f a) := by
  cases x <;> rfl
@[src] theorem lift_map {α β : Type} (f : α → β) (x : Except Err α) : lift (x.map f) = lift x >>= fun a => .ok (f a) := by
  cases x <;> rfl
@[src] theorem lift_fmap {α β : Type} (f : α → β) (x : Except Err α) : lift (f <$> x) = lift x >>= fun a => .ok (f a) := by
  cases x <;> rfl
@[src] theorem lift_ite {α : Type} (c : Prop) [Decidable c] (x y : Except Err α) : lift (if c then x else y) = if c then lift x else lift y := by
  split <;> rfl

/-! ### Levels -/

theorem app_func (n : Nat) (d : FunDef) (args : List Val) (kw : List (Nm × Val)) :
    (level (n + 1)).app (.func d) args kw = callDef (level n) d args kw := rfl
theorem app_bound (n : Nat) (d : FunDef) (v : Val) (args : List Val) (kw : List (Nm × Val)) :
    (level (n + 1)).app (.bound d v) args kw = callDef (level n) d (v :: args) kw := rfl
theorem const_eval (n : Nat) (m : Mod) (env : Env) (e : Expr) : (level (n + 1)).const m env e = eval (level n) m env e := rfl
theorem init_step (n : Nat) (cs : List Cl) (v : Val) (args : List Val) : (level (n + 1)).init cs v args = initStep (level n) cs v args := rfl

/-! ### Equations of the interpreter -/

@[src] theorem get_nil {α : Type} (x : Nm) : get x ([] : List (Nm × α)) = .none := rfl
@[src] theorem get_cons {α : Type} (x y : Nm) (v : α) (t : List (Nm × α)) : get x ((y, v) :: t) = if x = y then some v else get x t := rfl
@[src] theorem set_nil {α : Type} (x : Nm) (v : α) : set x v ([] : List (Nm × α)) = [(x, v)] := rfl
@[src] theorem set_cons {α : Type} (x y : Nm) (v w : α) (t : List (Nm × α)) :
    set x v ((y, w) :: t) = if x = y then (x, v) :: t else (y, w) :: set x v t := rfl

theorem get_set_self {α : Type} (x : Nm) (v : α) (env : List (Nm × α)) : get x (set x v env) = some v := by
  induction env with
  | nil => simp [get, set]
  | cons a env ih =>
    obtain ⟨y, w⟩ := a
    by_cases h : x = y
    · simp [get, set, h]
    · simp [get, set, h, ih]

theorem get_set_ne {α : Type} {x y : Nm} (h : x ≠ y) (v : α) (env : List (Nm × α)) : get x (set y v env) = get x env := by
  induction env with
  | nil => simp [get, set, h]
  | cons a env ih =>
    obtain ⟨z, w⟩ := a
    by_cases h1 : y = z
    · subst h1; simp [get, set, h]
    · by_cases h2 : x = z
      · subst h2; simp [get, set, h1]
      · simp [get, set, h1, h2, ih]

attribute [src] callDef frame bindParams bindVar bindKw evalList evalKw evalPairs assign enough assignAll

@[src] theorem assign_many_nil (env : Env) (ts : List Target) (star : Option Target) : assignMany env ts star [] =
    if enough ts star [] then assignAll env ts star [] else .error (.err .value) := rfl
@[src] theorem assign_many_cons (env : Env) (ts : List Target) (star : Option Target) (v : Val) (vs : List Val) : assignMany env ts star (v :: vs) =
    if enough ts star (v :: vs) then assignAll env ts star (v :: vs) else .error (.err .value) := rfl

/-- The body of a loop (not unfolded by `src`). -/
def runBody (L : Level) (m : Mod) (chain : List Cl) (body : List Stmt) (env : Env) : M Flow := execBlock L m chain env body

/-- The element of a comprehension (not unfolded by `src`). -/
def runElt (L : Level) (m : Mod) (env : Env) (x : Nm) (e : Expr) (v : Val) : M Val := eval L m (set x v env) e

section equations
variable (L : Level) (m : Mod) (chain : List Cl) (env : Env)

@[src] theorem eval_name (x : Nm) : eval L m env (.name x) = match get x env with
    | some v => .ok v
    | .none => globalVal L m x := by rw [eval] <;> rfl
@[src] theorem eval_int (n : Nat) : eval L m env (.int n) = .ok (.int (n : Int)) := by rw [eval] <;> rfl
@[src] theorem eval_str (s : Str) : eval L m env (.str s) = .ok (.str s) := by rw [eval] <;> rfl
@[src] theorem eval_bool (b : Bool) : eval L m env (.bool b) = .ok (.bool b) := by rw [eval] <;> rfl
@[src] theorem eval_attr (e : Expr) (a : Nm) : eval L m env (.attr e a) = eval L m env e >>= fun v => getAttr L v a := by rw [eval] <;> rfl
@[src] theorem eval_item (e i : Expr) : eval L m env (.item e i) = eval L m env e >>= fun v => eval L m env i >>= fun i => getItem v i := by rw [eval] <;> rfl
@[src] theorem eval_slice (e lo hi st : Expr) : eval L m env (.slice e lo hi st) = eval L m env e >>= fun v => eval L m env lo >>= fun lo => eval L m env hi >>= fun hi =>
    eval L m env st >>= fun st => getSlice v lo hi st := by rw [eval] <;> rfl
@[src] theorem eval_call (f : Expr) (args : List Expr) (kw : List (Nm × Expr)) : eval L m env (.call f args kw) = eval L m env f >>= fun f => evalList L m env args >>= fun args =>
    evalKw L m env kw >>= fun kw => applyVal L f args kw := by rw [eval] <;> rfl
@[src] theorem eval_cat (a b : Expr) : eval L m env (.cat a b) = eval L m env a >>= fun a => eval L m env b >>= fun b => binOp .add a b := by rw [eval] <;> rfl
@[src] theorem eval_bin (op : BinOp) (a b : Expr) : eval L m env (.bin op a b) = eval L m env a >>= fun a => eval L m env b >>= fun b => binOp op a b := by rw [eval] <;> rfl
@[src] theorem eval_not (a : Expr) : eval L m env (.not a) = eval L m env a >>= fun a => .ok (.bool (!a.truthy)) := by rw [eval] <;> rfl
@[src] theorem eval_and (a b : Expr) : eval L m env (.and a b) = eval L m env a >>= fun a => if a.truthy then eval L m env b else .ok a := by rw [eval] <;> rfl
@[src] theorem eval_or (a b : Expr) : eval L m env (.or a b) = eval L m env a >>= fun a => if a.truthy then .ok a else eval L m env b := by rw [eval] <;> rfl
@[src] theorem eval_cmp (op : CmpOp) (a b : Expr) : eval L m env (.cmp op a b) = eval L m env a >>= fun a => eval L m env b >>= fun b => cmpOp op a b >>= fun r => .ok (.bool r) := by rw [eval] <;> rfl
@[src] theorem eval_cmp2 (op1 op2 : CmpOp) (a b c : Expr) : eval L m env (.cmp2 op1 op2 a b c) = eval L m env a >>= fun a => eval L m env b >>= fun b => cmpOp op1 a b >>= fun r =>
    if r then eval L m env c >>= fun c => cmpOp op2 b c >>= fun r => .ok (.bool r) else .ok (.bool false) := by rw [eval] <;> rfl
@[src] theorem eval_ite (c a b : Expr) : eval L m env (.ite c a b) = eval L m env c >>= fun c => if c.truthy then eval L m env a else eval L m env b := by rw [eval] <;> rfl
@[src] theorem eval_list (l : List Expr) : eval L m env (.list l) = evalList L m env l >>= fun l => .ok (.list l) := by rw [eval] <;> rfl
@[src] theorem eval_dict (l : List (Expr × Expr)) : eval L m env (.dict l) = evalPairs L m env l >>= fun l => .ok (.dict (dictOf l)) := by rw [eval] <;> rfl
@[src] theorem eval_mkDict (p : Expr) : eval L m env (.mkDict p) = eval L m env p >>= fun l => asList l >>= fun l => pairsOf l >>= fun l => .ok (.dict (dictOf l)) := by rw [eval] <;> rfl
@[src] theorem eval_map (elt : Expr) (x : Nm) (it : Expr) : eval L m env (.map elt x it) = eval L m env it >>= fun it => iter it >>= fun l =>
    l.mapM (runElt L m env x elt) >>= fun r => .ok (.list r) := by rw [eval] <;> rfl
@[src] theorem eval_none : eval L m env .none = .ok .none := by rw [eval] <;> rfl
@[src] theorem eval_callKw (f kw : Expr) : eval L m env (.callKw f kw) = eval L m env f >>= fun f => eval L m env kw >>= fun k =>
    match k with
    | .kwargs l => applyVal L f [] l
    | _ => .error tErr := by rw [eval] <;> rfl
@[src] theorem eval_fmt (e spec : Expr) : eval L m env (.fmt e spec) = eval L m env e >>= fun v => eval L m env spec >>= fun s =>
    match s with
    | .str s => format v s
    | _ => .error tErr := by rw [eval] <;> rfl
@[src] theorem eval_neg (a : Expr) : eval L m env (.neg a) = eval L m env a >>= fun v =>
    match v with
    | .int i => .ok (.int (-i))
    | .bool _ => .error .unsupported
    | _ => .error tErr := by rw [eval] <;> rfl

@[src] theorem block_nil : execBlock L m chain env [] = .ok (.next env) := by rw [execBlock] <;> rfl
@[src] theorem block_one (s : Stmt) : execBlock L m chain env [s] = exec L m chain env s := by
  rw [execBlock]
  cases exec L m chain env s with
  | error e => rfl
  | ok f => cases f <;> first | rfl | (show execBlock L m chain _ [] = _; rw [block_nil])
@[src] theorem block_cons (s t : Stmt) (ss : List Stmt) : execBlock L m chain env (s :: t :: ss) = exec L m chain env s >>= fun f =>
    match f with
    | .next env => execBlock L m chain env (t :: ss)
    | f => .ok f := by rw [execBlock] <;> rfl

@[src] theorem exec_expr (e : Expr) : exec L m chain env (.expr e) = eval L m env e >>= fun _ => .ok (.next env) := by rw [exec] <;> rfl
@[src] theorem exec_assign (t : Target) (e : Expr) : exec L m chain env (.assign t e) = eval L m env e >>= fun v => assign env v t >>= fun env => .ok (.next env) := by rw [exec] <;> rfl
@[src] theorem exec_unpack (ts : List Target) (star : Option Target) (e : Expr) : exec L m chain env (.unpack ts star e) = eval L m env e >>= fun v => asList v >>= fun vs =>
    assignMany env ts star vs >>= fun env => .ok (.next env) := by rw [exec] <;> rfl
@[src] theorem exec_aug (x : Nm) (e : Expr) : exec L m chain env (.aug x e) = eval L m env (.name x) >>= fun a => eval L m env e >>= fun b => binOp .add a b >>= fun v =>
    .ok (.next (set x v env)) := by rw [exec] <;> rfl
@[src] theorem exec_ret (e : Expr) : exec L m chain env (.ret e) = eval L m env e >>= fun v => .ok (.ret v) := by rw [exec] <;> rfl
@[src] theorem exec_raise (e : Expr) : exec L m chain env (.raise e) = eval L m env e >>= fun v =>
    match v with
    | .exn x => .error x
    | _ => .error tErr := by rw [exec] <;> rfl
@[src] theorem exec_ite (c : Expr) (a b : List Stmt) : exec L m chain env (.ite c a b) = eval L m env c >>= fun c => if c.truthy then execBlock L m chain env a else execBlock L m chain env b := by rw [exec] <;> rfl
@[src] theorem exec_for (x : Nm) (it : Expr) (body : List Stmt) : exec L m chain env (.for_ x it body) = eval L m env it >>= fun it => iter it >>= fun l =>
    forLoop (fun env v => .ok (set x v env)) (runBody L m chain body) l env := by rw [exec] <;> rfl
@[src] theorem exec_forUnpack (ts : List Target) (it : Expr) (body : List Stmt) : exec L m chain env (.forUnpack ts it body) = eval L m env it >>= fun it => iter it >>= fun l =>
    forLoop (fun env v => asList v >>= fun vs => assignMany env ts .none vs) (runBody L m chain body) l env := by rw [exec] <;> rfl
@[src] theorem exec_brk  : exec L m chain env (.brk) = .ok (.brk env) := by rw [exec] <;> rfl
@[src] theorem exec_cont  : exec L m chain env (.cont) = .ok (.cont env) := by rw [exec] <;> rfl
@[src] theorem exec_try (body handler : List Stmt) (exn : Exn) : exec L m chain env (.try_ body exn handler) = match execBlock L m chain env body with
    | .error e => if e = exn then execBlock L m chain env handler else .error e
    | r => r := by rw [exec] <;> rfl
@[src] theorem exec_superInit (args : List Expr) : exec L m chain env (.superInit args) = evalList L m env args >>= fun args =>
    match get .self env with
    | some self => L.init chain self args >>= fun self => .ok (.next (set .self self env))
    | .none => .error .name := by rw [exec] <;> rfl

end equations

attribute [src] if_true if_false ite_true ite_false List.isEmpty_nil List.isEmpty_cons Option.isSome_none Option.isSome_some
  List.append_nil List.nil_append List.cons_append Bool.not_true Bool.not_false Bool.false_eq_true eq_self

section values
variable (L : Level) (s t p r : Str) (i j : Int) (b : Bool) (v w : Val) (l : List Val) (n : Nat)

@[src] theorem truthy_bool : (Val.bool b).truthy = b := rfl
@[src] theorem truthy_none : Val.none.truthy = false := rfl
@[src] theorem truthy_int : (Val.int i).truthy = (i != 0) := rfl
@[src] theorem truthy_str : (Val.str s).truthy = !s.isEmpty := rfl

@[src] theorem add_int : binOp .add (.int i) (.int j) = .ok (.int (i + j)) := rfl
@[src] theorem add_str : binOp .add (.str s) (.str t) = .ok (.str (s ++ t)) := rfl
@[src] theorem sub_int : binOp .sub (.int i) (.int j) = .ok (.int (i - j)) := rfl
@[src] theorem mul_int : binOp .mul (.int i) (.int j) = .ok (.int (i * j)) := rfl
@[src] theorem mul_str_int : binOp .mul (.str s) (.int j) = .ok (.str (repeatStr s j)) := rfl
@[src] theorem mul_int_str : binOp .mul (.int i) (.str s) = .ok (.str (repeatStr s i)) := rfl
@[src] theorem mul_log : binOp .mul (.int i) (.log j) = .ok (.logMul i j) := rfl
@[src] theorem div_log (k : Int) : binOp .div (.logMul i j) (.log k) = .ok (.logDiv i j k) := rfl
@[src] theorem mod_int : binOp .mod (.int i) (.int j) = if j = 0 then .error .unsupported else .ok (.int (i.fmod j)) := rfl

@[src] theorem cmp_eq : cmpOp .eq v w = .ok (v.beq w) := by cases v <;> rfl
@[src] theorem cmp_ne : cmpOp .ne v w = .ok (!v.beq w) := by cases v <;> rfl
@[src] theorem cmp_lt : cmpOp .lt (.int i) (.int j) = .ok (decide (i < j)) := rfl
@[src] theorem cmp_le : cmpOp .le (.int i) (.int j) = .ok (decide (i ≤ j)) := rfl
@[src] theorem cmp_gt : cmpOp .gt (.int i) (.int j) = .ok (decide (i > j)) := rfl
@[src] theorem cmp_ge : cmpOp .ge (.int i) (.int j) = .ok (decide (i ≥ j)) := rfl
@[src] theorem cmp_in_dict (d : List (Val × Val)) : cmpOp .isIn v (.dict d) = .ok (dictGet v d).isSome := by cases v <;> rfl
@[src] theorem cmp_in_list : cmpOp .isIn v (.list l) = .ok (l.any (v.beq ·)) := by cases v <;> rfl
@[src] theorem cmp_notIn_dict (d : List (Val × Val)) : cmpOp .notIn v (.dict d) = .ok !(dictGet v d).isSome := by cases v <;> rfl
@[src] theorem cmp_notIn_list : cmpOp .notIn v (.list l) = .ok !(l.any (v.beq ·)) := by cases v <;> rfl

@[src] theorem beq_str : (Val.str s).beq (.str t) = (s == t) := rfl
@[src] theorem beq_int : (Val.int i).beq (.int j) = (i == j) := rfl
@[src] theorem beq_member (o o' : Cl) (e e' m m' : Nm) (a a' c c' : Str) :
    (Val.member o e m a c).beq (.member o' e' m' a' c') = (decide (o = o') && decide (e = e') && decide (m = m')) := rfl

@[src] theorem iter_list : iter (.list l) = .ok l := rfl
@[src] theorem iter_str : iter (.str s) = .ok (s.map (fun c => .str [c])) := rfl
@[src] theorem iter_enum (o : Cl) (e : Nm) (ms : List (Nm × Str × Str)) :
    iter (.enumCls o e ms) = .ok (ms.map (fun m => .member o e m.1 m.2.1 m.2.2)) := rfl
@[src] theorem asList_list : asList (.list l) = .ok l := rfl

/-! #### Built-in functions -/

@[src] theorem b_len : builtinCall .len [.str s] = .ok (.int (s.length : Int)) := rfl
@[src] theorem b_int : builtinCall .int [.str s] = (lift (pyInt 10 s)).map .int := rfl
@[src] theorem b_int_int : builtinCall .int [.int i] = .ok (.int i) := rfl
@[src] theorem b_int2 : builtinCall .int [.str s, .int ((2 : Nat) : Int)] = (lift (pyInt 2 s)).map .int := rfl
@[src] theorem b_int16 : builtinCall .int [.str s, .int ((16 : Nat) : Int)] = (lift (pyInt 16 s)).map .int := rfl
@[src] theorem b_int_log : builtinCall .int [.logDiv i ((2 : Nat) : Int) ((10 : Nat) : Int)] = .ok (.int (log10Pow2 i)) := rfl
@[src] theorem b_str_str : builtinCall .str [.str s] = .ok (.str s) := rfl
@[src] theorem b_str_int : builtinCall .str [.int i] = .ok (.str (intStr i)) := rfl
@[src] theorem b_chr : builtinCall .chr [.int i] = (lift (chr i)).map (fun c => .str [c]) := rfl
@[src] theorem b_ord (c : Char) : builtinCall .ord [.str [c]] = .ok (.int (c.toNat : Int)) := rfl
@[src] theorem b_sum : builtinCall .sum [.list l] = (sumInts l).map .int := rfl
@[src] theorem b_pow (k : Nat) : builtinCall .pow [.int i, .int (k : Int)] = .ok (.int (i ^ k)) := by
  have : (0 : Int) ≤ (k : Int) := Int.natCast_nonneg k
  simp [builtinCall, this]
@[src] theorem b_list : builtinCall .list [v] = (iter v).map .list := rfl
@[src] theorem b_log : builtinCall .log [.int i] = .ok (.log i) := rfl
@[src] theorem b_isinstance (d c : Cl) (at_ : List (Nm × Val)) :
    builtinCall .isinstance [.obj d at_, .cls c] = .ok (.bool ((clsMro d).contains c)) := rfl
@[src] theorem b_super (c : Cl) : builtinCall .super [.cls c, v] = .ok (.sup c v) := rfl

/-! #### Methods -/

@[src] theorem m_split (c : Char) : methodCall (.str s) .split [.str [c]] = .ok (.list ((split c s).map .str)) := rfl
@[src] theorem m_join : methodCall (.str s) .join [v] =
    match iter v with
    | .ok l =>
      match strsOf l with
      | .ok l =>
        match joinStr s l with
        | some r => .ok (.str r)
        | .none => .error .unsupported
      | .error e => .error e
    | .error e => .error e := rfl
@[src] theorem m_replace (a : Char) : methodCall (.str s) .replace [.str (a :: p), .str r] = .ok (.str (replaceAll (a :: p) r s)) := rfl
@[src] theorem m_replace1 (a : Char) : methodCall (.str s) .replace [.str (a :: p), .str r, .int ((1 : Nat) : Int)] =
    .ok (.str (replaceFirst (a :: p) r s)) := rfl
@[src] theorem m_startswith : methodCall (.str s) .startswith [.str p] = .ok (.bool (startsWith s p)) := rfl
@[src] theorem m_isnumeric : methodCall (.str s) .isnumeric [] = .ok (.bool (isNumeric s)) := rfl
@[src] theorem m_zfill : methodCall (.str s) .zfill [.int i] = .ok (.str (zfill i.toNat s)) := rfl
@[src] theorem m_upper : methodCall (.str s) .upper [] = .ok (.str (s.map upperChar)) := rfl
@[src] theorem m_keys (d : List (Val × Val)) : methodCall (.dict d) .keys [] = .ok (.list (d.map (·.1))) := rfl
@[src] theorem m_items (d : List (Val × Val)) : methodCall (.dict d) .items [] = .ok (.list (d.map (fun p => .list [p.1, p.2]))) := rfl
@[src] theorem m_fullmatch (x : Re) : methodCall (.regex x) .fullmatch [.str s] = .ok (.bool (x.fullmatch s)) := rfl
@[src] theorem m_match (x : Re) : methodCall (.regex x) .«match» [.str s] = .ok (.bool (x.matchPrefix s)) := rfl
@[src] theorem m_b64decode : methodCall (.module .base64) .b64decode [.str s] = (lift (b64decode s)).map .bytes := rfl
@[src] theorem m_b64encode (x : List Nat) : methodCall (.module .base64) .b64encode [.bytes x] = .ok (.ascii (b64encode x)) := rfl
@[src] theorem m_fromhex : methodCall (.module .bytes) .fromhex [.str s] = (lift (bytesFromHex s)).map .bytes := rfl
@[src] theorem m_hex (x : List Nat) : methodCall (.bytes x) .hex [] = .ok (.str (bytesHex x)) := rfl
@[src] theorem m_decode : methodCall (.ascii s) .decode [.str t] = .ok (.str s) := rfl

/-! #### Application and attributes -/

variable (args : List Val) (kw : List (Nm × Val)) (d : FunDef) (a x : Nm) (c : Cl) (attrs : List (Nm × Val))

@[src] theorem apply_meth : applyVal L (.meth v a) args [] = methodCall v a args := rfl
@[src] theorem apply_func : applyVal L (.func d) args kw = L.app (.func d) args kw := rfl
@[src] theorem apply_bound : applyVal L (.bound d v) args kw = L.app (.bound d v) args kw := rfl
@[src] theorem apply_cls : applyVal L (.cls c) args kw = L.app (.cls c) args kw := rfl
@[src] theorem apply_convert (n : Nat) : (level (n + 1)).app (.cls .ConvertException) args kw = .ok (.exn (.err .convert)) := rfl
@[src] theorem apply_len : applyVal L (.builtin .len) args [] = builtinCall .len args := rfl
@[src] theorem apply_int : applyVal L (.builtin .int) args [] = builtinCall .int args := rfl
@[src] theorem apply_str : applyVal L (.builtin .str) args [] = builtinCall .str args := rfl
@[src] theorem apply_chr : applyVal L (.builtin .chr) args [] = builtinCall .chr args := rfl
@[src] theorem apply_ord : applyVal L (.builtin .ord) args [] = builtinCall .ord args := rfl
@[src] theorem apply_sum : applyVal L (.builtin .sum) args [] = builtinCall .sum args := rfl
@[src] theorem apply_pow : applyVal L (.builtin .pow) args [] = builtinCall .pow args := rfl
@[src] theorem apply_list : applyVal L (.builtin .list) args [] = builtinCall .list args := rfl
@[src] theorem apply_log : applyVal L (.builtin .log) args [] = builtinCall .log args := rfl
@[src] theorem apply_isinstance : applyVal L (.builtin .isinstance) args [] = builtinCall .isinstance args := rfl
@[src] theorem apply_super : applyVal L (.builtin .super) args [] = builtinCall .super args := rfl
@[src] theorem apply_map : applyVal L (.builtin .map) [v, w] [] =
    match iter w with
    | .ok l => (l.mapM (fun x => L.app v [x] [])).map .list
    | .error e => .error e := rfl

@[src] theorem attr_str : getAttr L (.str s) a = .ok (.meth (.str s) a) := rfl
@[src] theorem attr_dict (d : List (Val × Val)) : getAttr L (.dict d) a = .ok (.meth (.dict d) a) := rfl
@[src] theorem attr_bytes (b : List Nat) : getAttr L (.bytes b) a = .ok (.meth (.bytes b) a) := rfl
@[src] theorem attr_ascii : getAttr L (.ascii s) a = .ok (.meth (.ascii s) a) := rfl
@[src] theorem attr_regex (r : Re) : getAttr L (.regex r) a = .ok (.meth (.regex r) a) := rfl
@[src] theorem attr_module : getAttr L (.module x) a = .ok (.meth (.module x) a) := rfl
@[src] theorem attr_value (o : Cl) (e m : Nm) : getAttr L (.member o e m s t) .value = .ok (.str t) := rfl
@[src] theorem attr_name (o : Cl) (e m : Nm) : getAttr L (.member o e m s t) .name = .ok (.str s) := rfl
@[src] theorem member_method (o : Cl) (b : Bool) : memberVal L c v b (some (o, .method d)) a = .ok (if b then .bound d v else .func d) := rfl
@[src] theorem member_classmethod (o : Cl) (b : Bool) : memberVal L c v b (some (o, .classmethod d)) a = .ok (.bound d (.cls c)) := rfl
@[src] theorem member_const (o : Cl) (b : Bool) (e : Expr) : memberVal L c v b (some (o, .const e)) a = L.const (clsMod o) [] e := rfl
@[src] theorem member_enum (o : Cl) (b : Bool) (ms : List (Nm × Str × Str)) : memberVal L c v b (some (o, .enum ms)) a = .ok (.enumCls o a ms) := rfl
@[src] theorem member_member (o : Cl) (b : Bool) : memberVal L c v b (some (o, .member s t)) a = .ok (.member o .IMPLICIT a s t) := rfl
@[src] theorem attr_cls : getAttr L (.cls c) a =
    if a = .__name__ then .ok (.str (clsName c)) else memberVal L c (.cls c) false (findIn a (clsMro c)) a := rfl
@[src] theorem attr_enumCls (o : Cl) (e : Nm) (ms : List (Nm × Str × Str)) : getAttr L (.enumCls o e ms) a =
    match get a ms with
    | some m => .ok (.member o e a m.1 m.2)
    | .none => .error .attribute := rfl
@[src] theorem attr_sup : getAttr L (.sup c v) a =
    match classOf v with
    | some d => memberVal L d v (match v with | .obj _ _ => true | _ => false) (findIn a (afterCl c (clsMro d))) a
    | .none => .error tErr := rfl
@[src] theorem attr_obj : getAttr L (.obj c attrs) a =
    match get a attrs with
    | some w => .ok w
    | .none => memberVal L c (.obj c attrs) true (findIn a (clsMro c)) a := rfl

/-! #### Names -/

@[src] theorem g_len : builtinVal .len = .ok (.builtin .len) := rfl
@[src] theorem g_int : builtinVal .int = .ok (.builtin .int) := rfl
@[src] theorem g_str : builtinVal .str = .ok (.builtin .str) := rfl
@[src] theorem g_chr : builtinVal .chr = .ok (.builtin .chr) := rfl
@[src] theorem g_ord : builtinVal .ord = .ok (.builtin .ord) := rfl
@[src] theorem g_sum : builtinVal .sum = .ok (.builtin .sum) := rfl
@[src] theorem g_pow : builtinVal .pow = .ok (.builtin .pow) := rfl
@[src] theorem g_list : builtinVal .list = .ok (.builtin .list) := rfl
@[src] theorem g_map : builtinVal .map = .ok (.builtin .map) := rfl
@[src] theorem g_isinstance : builtinVal .isinstance = .ok (.builtin .isinstance) := rfl
@[src] theorem g_super : builtinVal .super = .ok (.builtin .super) := rfl
@[src] theorem g_bytes : builtinVal .bytes = .ok (.module .bytes) := rfl

end values

end Epc.Src
