import Verif.Py.Syntax
import Verif.Model.Basic
import Verif.Model.Mem
import Verif.Model.Fp
import Mathlib.Data.Int.Bitwise
/-
What the programs of `Verif/Py/Source.lean` compute: the types of the results of integer operations and the conversions, in
compiled code (numba 0.59) and in plain Python on numpy scalars (numpy 1.26).

The types are those of the values at run time. In compiled code a variable has one type at every place where control flow joins,
the widest of its types there; every operation of numba widens to 64 bits first, so this makes no difference as long as no
variable is signed at one such place and unsigned at another (true of the programs here, except for one variable: see
`Verif/Py/Area3Level.lean`).
-/
namespace Verif.Py

/-- values -/
inductive Val where
  /-- a numpy scalar or a value of a compiled variable -/
  | sc (signed : Bool) (w : Nat) (x : BitVec w)
  /-- a Python integer (not in compiled code) -/
  | int (i : Int)
  | bool (b : Bool)
  | str (s : List Nat)
  | none
  | tup (vs : List Val)
  /-- the array held by the attribute of this name -/
  | arr (f : String)
  /-- an object that is only read, with its attributes -/
  | obj (fs : List (String × Val))
  /-- a double -/
  | flt (q : ℚ)
  /-- a `float32` -/
  | f32 (q : ℚ)

/-- contents of the array attributes, `np.uint8`, `np.uint16`, `np.uint32` and `np.uint64`, with their length -/
inductive Arr where
  | w8 (len : Nat) (m : Nat → BitVec 8)
  | w16 (len : Nat) (m : Nat → BitVec 16)
  | w32 (len : Nat) (m : Mem)
  | w64 (len : Nat) (m : Nat → BitVec 64)

/-- local variables, attributes of `self`, and array attributes -/
structure World where
  locals : List (String × Val)
  fields : List (String × Val)
  arrays : List (String × Arr)

/-- computations: the result or the exception, and the world afterwards -/
def M (α : Type) : Type := World → Except PyErr α × World

def M.pure (a : α) : M α := fun w => (.ok a, w)
def M.fail (e : PyErr) : M α := fun w => (.error e, w)
def M.bind (x : M α) (f : α → M β) : M β := fun w =>
  match x w with
  | (.ok a, w') => f a w'
  | (.error e, w') => (.error e, w')

instance : Monad M where
  pure := M.pure
  bind := M.bind

/-- a result that does not depend on the world -/
def M.lift (x : Except PyErr α) : M α := fun w => (x, w)

/-- the entry of this name -/
def get (x : String) : List (String × α) → Option α
  | [] => .none
  | (y, v) :: l => if y = x then some v else get x l

/-- replace or add the entry of this name -/
def put (x : String) (v : α) : List (String × α) → List (String × α)
  | [] => [(x, v)]
  | (y, u) :: l => if y = x then (x, v) :: l else (y, u) :: put x v l

/-! ### integers -/

/-- conversion of an integer of `w` bits to `w'` bits: a wider one is filled with zeros, or with the sign -/
def conv (signed : Bool) (w' : Nat) (x : BitVec w) : BitVec w' := if signed && w < w' then x.signExtend w' else x.setWidth w'

/-- a constant: an `int64` in compiled code -/
def literal (mode : Mode) (i : Int) : Val :=
  match mode with
  | .numba => .sc true 64 (BitVec.ofInt 64 i)
  | .numpy => .int i

/-- `np.uint32(v)` and so on: conversion to a type. Integers out of range wrap; of a float the integer part is taken,
and one out of range has no specified conversion (`overflowError`). -/
def cast (t : Ty) : Val → Except PyErr Val
  | .sc s _ x => .ok (.sc t.signed t.width (conv s t.width x))
  | .int i => .ok (.sc t.signed t.width (BitVec.ofInt t.width i))
  | .bool b => .ok (.sc t.signed t.width (if b then 1 else 0))
  | .flt q => if 0 ≤ q ∧ q < 2 ^ (t.width - t.signed.toNat) then .ok (.sc t.signed t.width (BitVec.ofInt t.width ⌊q⌋)) else .error .overflowError
  | .f32 q => if 0 ≤ q ∧ q < 2 ^ (t.width - t.signed.toNat) then .ok (.sc t.signed t.width (BitVec.ofInt t.width ⌊q⌋)) else .error .overflowError
  | _ => .error .typeError

/-- the integer a value stands for -/
def toInt : Val → Option Int
  | .sc s _ x => some (if s then x.toInt else x.toNat)
  | .int i => some i
  | .bool b => some (if b then 1 else 0)
  | _ => .none

/-- truth value -/
def truth : Val → Except PyErr Bool
  | .bool b => .ok b
  | .sc _ _ x => .ok (x != 0)
  | .int i => .ok (i != 0)
  | _ => .error .typeError

/-- the operations that are not shifts, on operands of the same type -/
def arith (mode : Mode) (op : BinOp) (signed : Bool) (x y : BitVec w) : Except PyErr (BitVec w) :=
  match op with
  | .add => .ok (x + y)
  | .sub => .ok (x - y)
  | .mul => .ok (x * y)
  | .and => .ok (x &&& y)
  | .or => .ok (x ||| y)
  | .xor => .ok (x ^^^ y)
  | .floordiv =>
    if y = 0 then (match mode with | .numba => .error .zeroDivision | .numpy => .ok 0)
    else .ok (if signed then BitVec.ofInt w (x.toInt.fdiv y.toInt) else x / y)
  | .mod =>
    if y = 0 then (match mode with | .numba => .error .zeroDivision | .numpy => .ok 0)
    else .ok (if signed then BitVec.ofInt w (x.toInt.fmod y.toInt) else x % y)
  | .shl | .shr => .error .other

/-- shifts by `c`; by the width or more undefined in compiled code (`other`), 0 (or all sign bits) with numpy -/
def shift (mode : Mode) (op : BinOp) (signed : Bool) (x : BitVec w) (c : Nat) : Except PyErr (BitVec w) :=
  if c < w then
    match op with
    | .shl => .ok (x <<< c)
    | .shr => .ok (if signed then x.sshiftRight c else x >>> c)
    | _ => .error .other
  else
    match mode with
    | .numba => .error .other
    | .numpy => .ok (if signed && op == .shr then x.sshiftRight c else 0)

def isShift : BinOp → Bool
  | .shl | .shr => true
  | _ => false

/-- compiled code: both operands are widened to 64 bits; the result is signed if one of them is. Only the first operand of a
shift decides. -/
def numbaBin (op : BinOp) (s₁ : Bool) (x : BitVec w₁) (s₂ : Bool) (y : BitVec w₂) : Except PyErr Val :=
  if isShift op then (shift .numba op s₁ (conv s₁ 64 x) (conv s₂ 64 y).toNat).map (.sc s₁ 64)
  else (arith .numba op (s₁ || s₂) (conv s₁ 64 x) (conv s₂ 64 y)).map (.sc (s₁ || s₂) 64)

/-- `np.promote_types` of two integer types, if it is an integer type -/
def promote (s₁ : Bool) (w₁ : Nat) (s₂ : Bool) (w₂ : Nat) : Option (Bool × Nat) :=
  match s₁, s₂ with
  | false, false => some (false, if w₁ ≤ w₂ then w₂ else w₁)
  | true, true => some (true, if w₁ ≤ w₂ then w₂ else w₁)
  | false, true => if w₁ < w₂ then some (true, w₂) else if w₁ < 64 then some (true, 2 * w₁) else .none
  | true, false => if w₂ < w₁ then some (true, w₁) else if w₂ < 64 then some (true, 2 * w₂) else .none

/-- numpy scalars: both operands are converted to the common type -/
def numpyBin (op : BinOp) (s₁ : Bool) (x : BitVec w₁) (s₂ : Bool) (y : BitVec w₂) : Except PyErr Val :=
  match promote s₁ w₁ s₂ w₂ with
  | .none => .error .typeError
  | some (s, w) =>
    if isShift op then (shift .numpy op s (conv s₁ w x) (conv s₂ w y).toNat).map (.sc s w)
    else (arith .numpy op s (conv s₁ w x) (conv s₂ w y)).map (.sc s w)

/-- Python integers -/
def intBin (op : BinOp) (a b : Int) : Except PyErr Val :=
  match op with
  | .add => .ok (.int (a + b))
  | .sub => .ok (.int (a - b))
  | .mul => .ok (.int (a * b))
  | .and => .ok (.int (Int.land a b))
  | .or => .ok (.int (Int.lor a b))
  | .xor => .ok (.int (Int.xor a b))
  | .shl => if b < 0 then .error .valueError else .ok (.int (a * 2 ^ b.toNat))
  | .shr => if b < 0 then .error .valueError else .ok (.int (a.fdiv (2 ^ b.toNat)))
  | .floordiv => if b = 0 then .error .zeroDivision else .ok (.int (a.fdiv b))
  | .mod => if b = 0 then .error .zeroDivision else .ok (.int (a.fmod b))

/-- products of `float32` numbers; the programs here do nothing else with them -/
def float32Bin (op : BinOp) (x y : ℚ) : Except PyErr Val :=
  match op with
  | .mul => .ok (.f32 (Fp.rnd 24 (x * y)))
  | _ => .error .other

/-- sums, differences and products of doubles; the programs here do nothing else with them -/
def floatBin (op : BinOp) (x y : ℚ) : Except PyErr Val :=
  match op with
  | .add => .ok (.flt (Fp.rnd 53 (x + y)))
  | .sub => .ok (.flt (Fp.rnd 53 (x - y)))
  | .mul => .ok (.flt (Fp.rnd 53 (x * y)))
  | _ => .error .other

/-- operations on the elements of arrays: `uint32` and `float32`, or `float64` and `float32`, give `float64` -/
def elemBin (op : BinOp) : Val → Val → Except PyErr Val
  | .sc false 32 x, .f32 y => floatBin op (x.toNat : ℚ) y
  | .flt x, .f32 y => floatBin op x y
  | _, _ => .error .typeError

/-- operations on arrays that are not stored in attributes (here: tuples), element by element -/
def arrayBin (op : BinOp) : List Val → List Val → Except PyErr (List Val)
  | [], [] => .ok []
  | x :: xs, y :: ys => (elemBin op x y).bind fun v => (arrayBin op xs ys).map (v :: ·)
  | _, _ => .error .valueError

/-- binary operations. A Python integer next to a numpy scalar is an `int64`, and an `int64` next to a `float32` makes both doubles. -/
def binop (mode : Mode) (op : BinOp) : Val → Val → Except PyErr Val
  | .sc s₁ _ x, .sc s₂ _ y => match mode with | .numba => numbaBin op s₁ x s₂ y | .numpy => numpyBin op s₁ x s₂ y
  | .sc s₁ _ x, .int j => numpyBin op s₁ x true (BitVec.ofInt 64 j)
  | .int i, .sc s₂ _ y => numpyBin op true (BitVec.ofInt 64 i) s₂ y
  | .int i, .int j => intBin op i j
  | .sc s _ x, .flt y => floatBin op (Fp.rnd 53 (if s then (x.toInt : ℚ) else (x.toNat : ℚ))) y
  | .f32 x, .f32 y => float32Bin op x y
  | .flt x, .flt y => floatBin op x y
  | .f32 x, .flt y => floatBin op x y
  | .flt x, .f32 y => floatBin op x y
  | .sc true 64 x, .f32 y => floatBin op (Fp.rnd 53 (x.toInt : ℚ)) y
  | .int i, .f32 y => floatBin op (Fp.rnd 53 (i : ℚ)) y
  | .tup xs, .tup ys => (arrayBin op xs ys).map .tup
  | _, _ => .error .typeError

/-- `~v` -/
def invert (mode : Mode) : Val → Except PyErr Val
  | .sc s _ x => match mode with | .numba => .ok (.sc s 64 (~~~ (conv s 64 x))) | .numpy => .ok (.sc s _ (~~~ x))
  | .int i => .ok (.int (-i - 1))
  | _ => .error .typeError

/-- comparisons compare the integers (in compiled code also for operands of different signedness; with numpy an unsigned
64-bit and a signed operand are compared as floats, which the programs here do not do), or two doubles (only `<` is used) -/
def compare (op : CmpOp) (a b : Val) : Except PyErr Val :=
  match toInt a, toInt b with
  | some i, some j =>
    match op with
    | .eq => .ok (.bool (decide (i = j)))
    | .ne => .ok (.bool (decide (i ≠ j)))
    | .lt => .ok (.bool (decide (i < j)))
    | .le => .ok (.bool (decide (i ≤ j)))
    | .gt => .ok (.bool (decide (j < i)))
    | .ge => .ok (.bool (decide (j ≤ i)))
  | _, _ =>
    match a, b, op with
    | .flt x, .flt y, .lt => .ok (.bool (decide (x < y)))
    | _, _, _ => .error .typeError

/-! ### memory -/

def Arr.len : Arr → Nat
  | .w8 n _ => n
  | .w16 n _ => n
  | .w32 n _ => n
  | .w64 n _ => n

def Arr.load (i : Nat) : Arr → Val
  | .w8 _ m => .sc false 8 (m i)
  | .w16 _ m => .sc false 16 (m i)
  | .w32 _ m => .sc false 32 (m i)
  | .w64 _ m => .sc false 64 (m i)

/-- a store converts to the type of the elements -/
def Arr.store (i : Nat) (v : Val) : Arr → Except PyErr Arr
  | .w8 n m =>
    match cast u8 v with
    | .ok (.sc _ _ x) => .ok (.w8 n fun j => if j = i then x.setWidth 8 else m j)
    | .ok _ => .error .typeError
    | .error e => .error e
  | .w16 n m =>
    match cast u16 v with
    | .ok (.sc _ _ x) => .ok (.w16 n fun j => if j = i then x.setWidth 16 else m j)
    | .ok _ => .error .typeError
    | .error e => .error e
  | .w32 n m =>
    match cast u32 v with
    | .ok (.sc _ _ x) => .ok (.w32 n (m.set i (x.setWidth 32)))
    | .ok _ => .error .typeError
    | .error e => .error e
  | .w64 n m =>
    match cast u64 v with
    | .ok (.sc _ _ x) => .ok (.w64 n fun j => if j = i then x.setWidth 64 else m j)
    | .ok _ => .error .typeError
    | .error e => .error e

/-- an index into a sequence of length `n`; negative ones count from the end. (Compiled code does not check.) -/
def position (n : Nat) (v : Val) : Except PyErr Nat :=
  match toInt v with
  | .none => .error .typeError
  | some i =>
    if 0 ≤ i then (if i.toNat < n then .ok i.toNat else .error .indexError)
    else if 0 ≤ i + n then .ok (i + n).toNat else .error .indexError

def loadItem (a i : Val) : M Val := fun w =>
  match a with
  | .tup vs => ((position vs.length i).bind fun k => match vs[k]? with | some v => .ok v | .none => .error .indexError, w)
  | .arr f =>
    match get f w.arrays with
    | .none => (.error .attributeError, w)
    | some m => ((position m.len i).map fun k => m.load k, w)
  | _ => (.error .typeError, w)

def storeItem (a i v : Val) : M Unit := fun w =>
  match a with
  | .arr f =>
    match get f w.arrays with
    | .none => (.error .attributeError, w)
    | some m =>
      match position m.len i with
      | .error e => (.error e, w)
      | .ok k =>
        match m.store k v with
        | .error e => (.error e, w)
        | .ok m' => (.ok (), { w with arrays := put f m' w.arrays })
  | _ => (.error .typeError, w)

/-- a program: the mode, module-level constants, the types of the scalar attributes of the class, and the meaning of calls -/
structure Env where
  mode : Mode
  globals : List (String × Val)
  fieldTypes : List (String × Ty)
  call : String → List Val → M Val

/-- an assignment to an attribute: converted to its type in compiled code -/
def storeField (E : Env) (f : String) (v : Val) : M Unit := fun w =>
  match E.mode, get f E.fieldTypes with
  | .numba, some t =>
    match cast t v with
    | .ok v' => (.ok (), { w with fields := put f v' w.fields })
    | .error e => (.error e, w)
  | _, _ => (.ok (), { w with fields := put f v w.fields })

/-- an assignment to a local variable: converted if `locals=` of the decorator declares it, in compiled code -/
def storeLocal (E : Env) (types : List (String × Ty)) (x : String) (v : Val) : M Unit := fun w =>
  match E.mode, get x types with
  | .numba, some t =>
    match cast t v with
    | .ok v' => (.ok (), { w with locals := put x v' w.locals })
    | .error e => (.error e, w)
  | _, _ => (.ok (), { w with locals := put x v w.locals })

/-- `range(a)`, `range(a, b)`, `range(a, b, c)` with a positive step: the values of the loop variable -/
def range (mode : Mode) : List Val → Except PyErr Val
  | [b] =>
    match toInt b with
    | some b => .ok (.tup ((List.range b.toNat).map fun (i : Nat) => literal mode i))
    | .none => .error .typeError
  | [a, b] =>
    match toInt a, toInt b with
    | some a, some b => .ok (.tup ((List.range (b - a).toNat).map fun (i : Nat) => literal mode (a + i)))
    | _, _ => .error .typeError
  | [a, b, c] =>
    match toInt a, toInt b, toInt c with
    | some a, some b, some c =>
      if 0 < c then .ok (.tup ((List.range ((b - a + c - 1) / c).toNat).map fun (i : Nat) => literal mode (a + c * i)))
      else .error .other
    | _, _, _ => .error .typeError
  | _ => .error .typeError

/-- calls of functions that are not in the program: `range`, `ord` -/
def builtin (E : Env) (f : String) (args : List Val) : M Val :=
  if f = "range" then M.lift (range E.mode args)
  else if f = "ord" then
    match args with
    | [.str [c]] => M.pure (literal E.mode c)
    | _ => M.fail .typeError
  else E.call f args

/-- `a.f`; of an object whose attributes change the calls give the meaning -/
def loadAttr (E : Env) (f : String) : Val → M Val
  | .obj fs => match get f fs with | some v => M.pure v | .none => M.fail .attributeError
  | v => E.call ("." ++ f) [v]

/-! ### expressions -/

def eval (E : Env) : Expr → M Val
  | .num n => M.pure (literal E.mode n)
  | .bool b => M.pure (.bool b)
  | .str s => M.pure (.str (s.toList.map Char.toNat))
  | .var x => fun w =>
    match get x w.locals with
    | some v => (.ok v, w)
    | .none =>
      match get x E.globals with
      | some v => (.ok v, w)
      | .none => (.error .other, w)
  | .self f => fun w =>
    match get f w.fields with
    | some v => (.ok v, w)
    | .none => (.error .attributeError, w)
  | .attr a f => (eval E a).bind fun a => loadAttr E f a
  | .item a i => (eval E a).bind fun a => (eval E i).bind fun i => loadItem a i
  | .bin op a b => (eval E a).bind fun a => (eval E b).bind fun b => M.lift (binop E.mode op a b)
  | .cmp op a b => (eval E a).bind fun a => (eval E b).bind fun b => M.lift (compare op a b)
  | .inv a => (eval E a).bind fun a => M.lift (invert E.mode a)
  | .and a b => (eval E a).bind fun a => (M.lift (truth a)).bind fun t => if t then eval E b else M.pure a
  | .or a b => (eval E a).bind fun a => (M.lift (truth a)).bind fun t => if t then M.pure a else eval E b
  | .not a => (eval E a).bind fun a => (M.lift (truth a)).bind fun t => M.pure (.bool (!t))
  | .ite c a b => (eval E c).bind fun c => (M.lift (truth c)).bind fun t => if t then eval E a else eval E b
  | .cast t a => (eval E a).bind fun a => M.lift (cast t a)
  | .call f args => (eval E args).bind fun vs => match vs with | .tup vs => builtin E f vs | _ => M.fail .typeError
  | .meth f args => (eval E args).bind fun vs => match vs with | .tup vs => E.call f vs | _ => M.fail .typeError
  | .nil => M.pure (.tup [])
  | .cons a b => (eval E a).bind fun a => (eval E b).bind fun b =>
      match b with | .tup vs => M.pure (.tup (a :: vs)) | _ => M.fail .typeError

/-! ### statements -/

/-- what a statement does besides its effects: go on, go on with the next round of the loop, leave the loop, or return -/
inductive Ctl where
  | next
  | cont
  | brk
  | ret (v : Val)

/-- a store into a target -/
def store (E : Env) (types : List (String × Ty)) : Expr → Val → M Unit
  | .var x, v => storeLocal E types x v
  | .self f, v => storeField E f v
  | .item a i, v => (eval E a).bind fun a => (eval E i).bind fun i => storeItem a i v
  | .nil, .tup [] => M.pure ()
  | .cons a b, .tup (v :: vs) => (store E types a v).bind fun _ => store E types b (.tup vs)
  | _, _ => M.fail .typeError

def loop (body : Val → M Ctl) : List Val → M Ctl
  | [] => M.pure .next
  | v :: vs => (body v).bind fun c => match c with | .next => loop body vs | .cont => loop body vs | .brk => M.pure .next | .ret r => M.pure (.ret r)

def whileLoop (cond : M Bool) (body : M Ctl) : Nat → M Ctl
  | 0 => M.fail .other
  | n + 1 => cond.bind fun t =>
      if t then body.bind fun c => match c with
        | .next => whileLoop cond body n
        | .cont => whileLoop cond body n
        | .brk => M.pure .next
        | .ret r => M.pure (.ret r)
      else M.pure .next

/-- `fuel` bounds the number of rounds of a `while` loop (`other` if it is used up) -/
def exec (E : Env) (types : List (String × Ty)) (fuel : Nat) : Stmt → M Ctl
  | .pass => M.pure .next
  | .seq a b => (exec E types fuel a).bind fun c =>
      match c with | .next => exec E types fuel b | .cont => M.pure .cont | .brk => M.pure .brk | .ret r => M.pure (.ret r)
  | .assign t e => (eval E e).bind fun v => (store E types t v).bind fun _ => M.pure .next
  | .assign2 a b e => (eval E e).bind fun v => (store E types a v).bind fun _ => (store E types b v).bind fun _ => M.pure .next
  | .aug op t e => (eval E t).bind fun a => (eval E e).bind fun b => (M.lift (binop E.mode op a b)).bind fun v =>
      (store E types t v).bind fun _ => M.pure .next
  | .expr e => (eval E e).bind fun _ => M.pure .next
  | .ret e => (eval E e).bind fun v => M.pure (.ret v)
  | .ite c a b => (eval E c).bind fun c => (M.lift (truth c)).bind fun t =>
      if t then exec E types fuel a else exec E types fuel b
  | .for x e body => (eval E e).bind fun vs =>
      match vs with
      | .tup vs => loop (fun v => (storeLocal E types x v).bind fun _ => exec E types fuel body) vs
      | .str cs => loop (fun v => (storeLocal E types x v).bind fun _ => exec E types fuel body) (cs.map fun c => .str [c])
      | _ => M.fail .typeError
  | .while c body => whileLoop ((eval E c).bind fun v => M.lift (truth v)) (exec E types fuel body) fuel
  | .continue => M.pure .cont
  | .break => M.pure .brk
  | .raise => M.fail .notImplemented

/-! ### programs -/

/-- a class (or module): its functions, constants and the types of its scalar attributes, and functions given by their meaning -/
structure Prog where
  funs : List (String × Fun)
  globals : List (String × Val)
  fieldTypes : List (String × Ty)
  given : List (String × (List Val → M Val)) := []

/-- the arguments of a function that declares their types, in compiled code -/
def castArgs (mode : Mode) : Option (List Ty) → List Val → Except PyErr (List Val)
  | some (t :: ts), v :: vs =>
    match mode with
    | .numba => (cast t v).bind fun v => (castArgs mode (some ts) vs).bind fun vs => .ok (v :: vs)
    | .numpy => .ok (v :: vs)
  | _, vs => .ok vs

/-- the result of a function that declares its type, in compiled code -/
def castResult (mode : Mode) (t : Option Ty) (v : Val) : Except PyErr Val :=
  match mode, t with
  | .numba, some t => cast t v
  | _, _ => .ok v

/-- likewise of a function that returns a tuple -/
def castTuple (mode : Mode) (ts : Option (List Ty)) (v : Val) : Except PyErr Val :=
  match ts, v with
  | some ts, .tup vs => (castArgs mode (some ts) vs).map .tup
  | _, v => .ok v

/-- the body of a function: the arguments become the local variables; afterwards the local variables of the caller are back -/
def invoke (E : Env) (fuel : Nat) (F : Fun) (args : List Val) : M Val := fun w =>
  match castArgs E.mode F.args args with
  | .error e => (.error e, w)
  | .ok args =>
    if args.length = F.params.length then
      match exec E F.locals fuel F.body { w with locals := F.params.zip args } with
      | (.ok (.ret v), w') => ((castResult E.mode F.result v).bind (castTuple E.mode F.results), { w' with locals := w.locals })
      | (.ok .next, w') => (.ok .none, { w' with locals := w.locals })
      | (.ok .cont, w') => (.error .other, { w' with locals := w.locals })
      | (.ok .brk, w') => (.error .other, { w' with locals := w.locals })
      | (.error e, w') => (.error e, { w' with locals := w.locals })
    else (.error .typeError, w)

/-- A call of the function or method `f` of a program. `depth` bounds the depth of nested calls, `fuel` the rounds of each `while`
loop (`other` if one is used up). -/
def run (P : Prog) (mode : Mode) (fuel : Nat) : (depth : Nat) → String → List Val → M Val
  | 0, _, _ => M.fail .other
  | depth + 1, f, args =>
    match get f P.funs with
    | .none => match get f P.given with | some g => g args | .none => M.fail .attributeError
    | some F => invoke ⟨mode, P.globals, P.fieldTypes, run P mode fuel depth⟩ fuel F args

/-- attributes of an object -/
structure Obj where
  fields : List (String × Val)
  arrays : List (String × Arr)

/-- the world of a call on the object from a place with these local variables -/
def Obj.world (o : Obj) (l : List (String × Val)) : World := ⟨l, o.fields, o.arrays⟩

/-- On every object that represents `s`, a call of `f` with these arguments returns (or raises) `r` and leaves an object that
represents `s'`, and the local variables of the caller as they were, if `while` loops may have `n` rounds and calls may be nested
`d` deep. -/
def Calls (P : Prog) (mode : Mode) (rep : σ → Obj → Prop) (n d : Nat) (f : String) (args : List Val) (s : σ) (r : Except PyErr Val)
    (s' : σ) : Prop :=
  ∀ fuel depth, n ≤ fuel → d ≤ depth → ∀ o, rep s o →
    ∃ o', rep s' o' ∧ ∀ l, run P mode fuel depth f args (o.world l) = (r, o'.world l)

end Verif.Py
