import Verif.Props.SourceC3
import Verif.Spec.Slots

/-!
# C87: operators, the tables, and all functions together
-/

namespace ZS.Props
open ZS.CM ZS.CS

variable {H : Host}

/-- The name of a function in the C files. -/
def cname : CFn → String
  | .bin .add => "proxy_add" | .bin .sub => "proxy_sub" | .bin .mul => "proxy_mul" | .bin .mod => "proxy_mod"
  | .bin .divmod => "proxy_divmod" | .bin .lshift => "proxy_lshift" | .bin .rshift => "proxy_rshift" | .bin .and => "proxy_and"
  | .bin .xor => "proxy_xor" | .bin .or => "proxy_or" | .bin .floordiv => "proxy_floordiv" | .bin .truediv => "proxy_truediv"
  | .inpl .iadd => "proxy_iadd" | .inpl .isub => "proxy_isub" | .inpl .imul => "proxy_imul" | .inpl .imod => "proxy_imod"
  | .inpl .ipow => "proxy_ipow" | .inpl .ilshift => "proxy_ilshift" | .inpl .irshift => "proxy_irshift" | .inpl .iand => "proxy_iand"
  | .inpl .ixor => "proxy_ixor" | .inpl .ior => "proxy_ior" | .inpl .ifloordiv => "proxy_ifloordiv" | .inpl .itruediv => "proxy_itruediv"
  | .un .neg => "proxy_neg" | .un .pos => "proxy_pos" | .un .abs => "proxy_abs" | .un .invert => "proxy_invert"
  | .un .int => "proxy_int" | .un .float => "proxy_float" | .un .complex => "" | .un .index => ""
  | .pow => "proxy_pow" | .bool => "proxy_bool" | .length => "proxy_length" | .igetitem => "proxy_igetitem"
  | .isetitem => "proxy_isetitem" | .contains => "proxy_contains" | .getitem => "proxy_getitem" | .setitem => "proxy_setitem"
  | .dealloc => "proxy_dealloc" | .repr => "proxy_repr" | .hash => "proxy_hash" | .call => "proxy_call" | .str => "proxy_str"
  | .getattro => "proxy_getattro" | .setattro => "proxy_setattro" | .traverse => "proxy_traverse" | .richcompare => "proxy_richcompare"
  | .iter => "proxy_iter" | .iternext => "proxy_iternext" | .init => "proxy_init" | .new => "proxy_new" | .lengthHint => "proxy_length_hint"
  | .checkerDealloc => "Checker_dealloc" | .checkerTraverse => "Checker_traverse" | .checkerClear => "Checker_clear"
  | .checkerInit => "Checker_init" | .checkerProxy => "Checker_proxy" | .checkerCheckInt => "Checker_check_int"
  | .permissionId => "Checker_permission_id" | .setattrPermissionId => "Checker_setattr_permission_id"
  | .checkerCheck => "Checker_check" | .checkerCheckSetattr => "Checker_check_setattr"
  | .getGetPermissions => "Checker_get_get_permissions" | .getSetPermissions => "Checker_get_set_permissions"
  | .genericAlloc => "PyType_GenericAlloc" | .genericNew => "PyType_GenericNew" | .gcDel => "PyObject_GC_Del"

/-- What the interpreter passes to a function: methods with two arguments get a tuple, getters a closure, the initialiser a
tuple and keywords; `proxy_ipow` is declared with two parameters. -/
def passed : CFn → Args → List V
  | .getGetPermissions, .one a => [.ptr (some a), .ptr none]
  | .getSetPermissions, .one a => [.ptr (some a), .ptr none]
  | .inpl .ipow, .three a b _ => [.ptr (some a), .ptr (some b)]
  | .checkerCheck, .three a b c => [.ptr (some a), .tuple (b :: c.toList)]
  | .checkerCheckSetattr, .three a b c => [.ptr (some a), .tuple (b :: c.toList)]
  | .checkerInit, .three a b c => [.ptr (some a), .tuple (b :: c.toList), .ptr none]
  | _, .one a => [.ptr (some a)]
  | _, .two a b => [.ptr (some a), .ptr (some b)]
  | _, .three a b c => [.ptr (some a), .ptr (some b), .ptr c]
  | _, .item a i => [.ptr (some a), .int i]
  | _, .assItem a i v => [.ptr (some a), .int i, .ptr v]
  | _, .cmp a b op => [.ptr (some a), .ptr (some b), .lit op]

theorem runs2_api (a : Api) (u : UserFn) (h : ∀ b vs k, callApi H b a vs k = user H u vs k) :
    Runs2 H 0 (.api a) fun x y => CM.api H.E u [x, y] := by
  intro d _ x y k
  rw [apply_api, h]
  rfl

theorem runs1_api (a : Api) (u : UserFn) (h : ∀ b vs k, callApi H b a vs k = user H u vs k) :
    Runs1 H 0 (.api a) fun x => CM.api H.E u [x] := by
  intro d _ x k
  rw [apply_api, h]
  rfl

theorem runs2_ipow : Runs2 H 1 (.fn "call_ipow") (callIpow H.E) := by
  intro d hd x y k
  rw [apply_fn, (C87_call_ipow x y).call hd, C.bind_assoc]
  rfl

theorem runs1_int (hH : H.Ok) : Runs1 H 1 (.fn "call_int") (callNumber H.E "__int__") := by
  intro d hd x k
  rw [apply_fn, (C87_call_int hH x).call hd, C.bind_assoc]
  rfl

theorem runs1_float (hH : H.Ok) : Runs1 H 1 (.fn "call_float") (callNumber H.E "__float__") := by
  intro d hd x k
  rw [apply_fn, (C87_call_float hH x).call hd, C.bind_assoc]
  rfl

/-- One function of the `BINOP` family. -/
theorem binop (hH : H.Ok) {f : String} {g : CFunc} {x y : Nat} {v rv : String} {s rs : String} {a : Api} {u : UserFn}
    (hf : Src.functions.find? (fun g => g.name == f) = some g) (hp : g.params = ["self", "other"])
    (hb : g.body = .ret (.call (.fn "check2") [.var "self", .var "other", .glob v, .glob rv, .api a]))
    (hv : glob H v = .name s) (hr : glob H rv = .name rs) (ha : ∀ b vs k, callApi H b a vs k = user H u vs k)
    (hx : H.E.held x = true) (hy : H.E.held y = true) :
    RunsAs H 6 f [.ptr (some x), .ptr (some y)]
      (CM.check2 H.E H.fuel x y (H.E.const s) (H.E.const rs) fun x y => CM.api H.E u [x, y]) .ptr := by
  refine .mono (.intro (n := 4) hf (by rw [hp]; rfl) fun d hd => ?_) (by decide)
  rw [hb, hp]
  prun [hv, hr, (C87_check2 hH x y _ _ (.name s) (.name rs) rfl rfl hx hy (runs2_api a u ha)).call hd]

/-- One function of the `INPLACE` family. -/
theorem inplaceop (hH : H.Ok) {f : String} {g : CFunc} {x y : Nat} {v : String} {s : String} {a : Api} {u : UserFn}
    (hf : Src.functions.find? (fun g => g.name == f) = some g) (hp : g.params = ["self", "other"])
    (hb : g.body = .ret (.call (.fn "check2i") [.var "self", .var "other", .glob v, .api a]))
    (hv : glob H v = .name s) (ha : ∀ b vs k, callApi H b a vs k = user H u vs k) (hx : H.E.held x = true) :
    RunsAs H 6 f [.ptr (some x), .ptr (some y)]
      (CM.check2i H.E H.fuel x y (H.E.const s) fun x y => CM.api H.E u [x, y]) .ptr := by
  refine .mono (.intro (n := 4) hf (by rw [hp]; rfl) fun d hd => ?_) (by decide)
  rw [hb, hp]
  prun [hv, (C87_check2i hH x y _ (.name s) rfl hx (runs2_api a u ha)).call hd]

/-- One function of the `UNOP` family. -/
theorem unop (hH : H.Ok) {f : String} {g : CFunc} {x : Nat} {v : String} {s : String} {a : Api} {u : UserFn}
    (hf : Src.functions.find? (fun g => g.name == f) = some g) (hp : g.params = ["self"])
    (hb : g.body = .ret (.call (.fn "check1") [.var "self", .glob v, .api a]))
    (hv : glob H v = .name s) (ha : ∀ b vs k, callApi H b a vs k = user H u vs k) (hx : H.E.held x = true) :
    RunsAs H 6 f [.ptr (some x)] (CM.check1 H.E H.fuel x (H.E.const s) fun x => CM.api H.E u [x]) .ptr := by
  refine .mono (.intro (n := 4) hf (by rw [hp]; rfl) fun d hd => ?_) (by decide)
  rw [hb, hp]
  prun [hv, (C87_check1 hH x _ (.name s) rfl hx (runs1_api a u ha)).call hd]

theorem C87_binop (hH : H.Ok) (b : BinName) (x y : Nat) (hx : H.E.held x = true) (hy : H.E.held y = true) :
    RunsAs H 6 (cname (.bin b)) [.ptr (some x), .ptr (some y)]
      (CM.check2 H.E H.fuel x y (H.E.const b.op) (H.E.const b.rop) fun x y => CM.api H.E (binCall b) [x, y]) .ptr := by
  cases b <;> exact binop hH rfl rfl rfl rfl rfl (fun _ _ _ => rfl) hx hy

theorem C87_inplace (hH : H.Ok) (b : InName) (x y : Nat) (hx : H.E.held x = true) :
    RunsAs H 6 (cname (.inpl b)) [.ptr (some x), .ptr (some y)]
      (CM.check2i H.E H.fuel x y (H.E.const b.op) (inCall H.E b)) .ptr := by
  cases b
  case ipow =>
    have hg : glob H "str_op_ipow" = .name "__ipow__" := rfl
    refine .intro (n := 5) (g := Src.proxy_ipow) rfl rfl fun d hd => ?_
    prun [Src.proxy_ipow, hg, (C87_check2i hH x y _ (.name "__ipow__") rfl hx runs2_ipow).call hd]
    rfl
  all_goals exact inplaceop hH rfl rfl rfl rfl (fun _ _ _ => rfl) hx

theorem C87_unop (hH : H.Ok) (u : UnName) (x : Nat) (hx : H.E.held x = true) (hu : u ≠ .complex ∧ u ≠ .index) :
    RunsAs H 6 (cname (.un u)) [.ptr (some x)] (CM.check1 H.E H.fuel x (H.E.const u.op) (unCall H.E u)) .ptr := by
  cases u
  case int =>
    have hg : glob H "str_op_int" = .name "__int__" := rfl
    refine .intro (n := 5) (g := Src.proxy_int) rfl rfl fun d hd => ?_
    prun [Src.proxy_int, hg, (C87_check1 hH x _ (.name "__int__") rfl hx (runs1_int hH)).call hd]
    rfl
  case float =>
    have hg : glob H "str_op_float" = .name "__float__" := rfl
    refine .intro (n := 5) (g := Src.proxy_float) rfl rfl fun d hd => ?_
    prun [Src.proxy_float, hg, (C87_check1 hH x _ (.name "__float__") rfl hx (runs1_float hH)).call hd]
    rfl
  case complex => exact absurd rfl hu.1
  case index => exact absurd rfl hu.2
  all_goals exact unop hH rfl rfl rfl rfl (fun _ _ _ => rfl) hx

/-- **Objects.** Every function of the tables that returns an object runs, from source, as its program in the model. -/
theorem C87_objects (hH : H.Ok) (f : CFn) (args : Args) (prog : C Ptr) (hr : runObj H.E H.fuel f args = some prog)
    (ha : args.Held H.E) : RunsAs H 6 (cname f) (passed f args) prog .ptr := by
  unfold runObj at hr
  split at hr <;> try cases hr
  · exact C87_binop hH _ _ _ ha.1 ha.2
  · exact C87_inplace hH .ipow _ _ ha.1
  · rename_i b x y hb
    have : passed (.inpl b) (.two x y) = [.ptr (some x), .ptr (some y)] := by cases b <;> rfl
    rw [this]
    exact C87_inplace hH b _ _ ha.1
  · rename_i u x h1 h2
    exact C87_unop hH u _ ha ⟨h1, h2⟩
  · exact (C87_pow hH _ _ _ ha.1 ha.2.1 ha.2.2).mono (by decide)
  · exact (C87_igetitem hH _ _ ha).mono (by decide)
  · exact (C87_getitem hH _ _ ha.1).mono (by decide)
  · exact (C87_repr hH _ ha).mono (by decide)
  · exact (C87_str hH _ ha).mono (by decide)
  · exact (C87_call hH _ _ _ ha.1).mono (by decide)
  · exact (C87_getattro hH _ _ ha.1).mono (by decide)
  · exact (C87_richcompare hH _ _ _ ha.1).mono (by decide)
  · exact (C87_iter hH _ ha).mono (by decide)
  · exact (C87_iternext hH _ ha).mono (by decide)
  · exact (C87_length_hint _ ha).mono (by decide)
  · exact (C87_proxy _ _).mono (by decide)
  · exact (C87_permission_id _ _ ha.1).mono (by decide)
  · exact (C87_setattr_permission_id _ _ ha.1).mono (by decide)
  · exact (C87_check_method _ _ _ ha.1).mono (by decide)
  · exact (C87_check_setattr _ _ _ ha.1).mono (by decide)
  · exact (C87_get_get_permissions _ _ ha).mono (by decide)
  · exact (C87_get_set_permissions _ _ ha).mono (by decide)

/-- **Numbers.** The same for the functions that return a number (`C87_check_int_null` for `Checker_check_int` with NULL). -/
theorem C87_numbers (hH : H.Ok) (f : CFn) (args : Args) (prog : C Int) (hr : runInt H.E f args = some prog)
    (ha : args.Held H.E) (hn : ∀ c o, ¬ (f = .checkerCheckInt ∧ args = .three c o none)) :
    RunsAs H 6 (cname f) (passed f args) prog .int := by
  unfold runInt at hr
  split at hr <;> try cases hr
  · exact (C87_bool _ ha).mono (by decide)
  · exact (C87_length hH _ ha).mono (by decide)
  · exact (C87_isetitem hH _ _ _ ha.1).mono (by decide)
  · exact (C87_contains hH _ _ ha.1).mono (by decide)
  · exact (C87_setitem hH _ _ _ ha.1).mono (by decide)
  · exact (C87_hash _ ha).mono (by decide)
  · exact (C87_setattro hH _ _ _ ha.1).mono (by decide)
  · rename_i c o n
    cases n with
    | none => exact absurd ⟨rfl, rfl⟩ (hn c o)
    | some n => exact (C87_check_int _ _ _ ha.1).mono (by decide)
  · exact (C87_clear _ ha).mono (by decide)
  · exact (C87_init _ _ _ _ ha.1).mono (by decide)

/-- What a member is initialised to, as the source has it.  Texts, sizes and tables of methods are data. -/
def cell : Cell → Entry → Bool
  | .null, .zero => true
  | .fn f, .ref s => cname f == s
  | .number, .ref s => s == "proxy_as_number"
  | .sequence, .ref s => s == "proxy_as_sequence"
  | .mapping, .ref s => s == "proxy_as_mapping" || s == "Checker_as_mapping"
  | .data, .text _ => true
  | .data, .other => true
  | .data, .ref s => ["proxy_doc", "proxy_methods", "Checker_methods", "Checker_getset"].contains s
  | _, _ => false

/-- The tables agree, member by member. -/
def cells : List Cell → List Entry → Bool
  | [], [] => true
  | c :: cs, e :: es => cell c e && cells cs es
  | _, _ => false

/-- How the function of a method is called, as `passed` says; the setters of attributes are NULL. -/
def calling : CFn → Entry
  | .checkerCheck => .ref "METH_VARARGS"
  | .checkerCheckSetattr => .ref "METH_VARARGS"
  | .lengthHint => .ref "METH_NOARGS"
  | .getGetPermissions => .zero
  | .getSetPermissions => .zero
  | _ => .ref "METH_O"

/-- Tables of methods: names, functions and how they are called, up to the entry that ends the table. -/
def methodTable (l : List (String × CFn)) (e : List (List Entry)) : Bool :=
  match l, e with
  | [], [.zero :: _] => true
  | (n, f) :: l, (.text n' :: .ref f' :: k :: _) :: e => n == n' && cname f == f' && decide (k = calling f) && methodTable l e
  | _, _ => false

/-- **Tables.** The tables of slots and methods of the model are those of the source. -/
theorem C87_tables :
    cells proxyAsNumber Src.proxy_as_number_t = true ∧ cells proxyAsSequence Src.proxy_as_sequence_t = true ∧
    cells proxyAsMapping Src.proxy_as_mapping_t = true ∧ cells CM.proxyType Src.SecurityProxyType_t = true ∧
    cells checkerAsMapping Src.Checker_as_mapping_t = true ∧ cells checkerType Src.CheckerType_t = true ∧
    methodTable proxyMethods Src.proxy_methods_p = true ∧ methodTable checkerMethods Src.Checker_methods_c = true ∧
    methodTable checkerGetset Src.Checker_getset_c = true ∧
    Src.module_functions_c = [[.text "selectChecker", .ref "selectChecker", .ref "METH_O", .ref "selectChecker_doc"], [.zero]] ∧
    Src.module_functions_p.map (List.take 3) =
      [[.text "getChecker", .ref "module_getChecker", .ref "METH_O"], [.text "getObject", .ref "module_getObject", .ref "METH_O"], [.zero]] := by
  decide +kernel

end ZS.Props
