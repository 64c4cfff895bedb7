/-
Abstract syntax of the part of Python that the generator classes are written in. The programs in `Verif/Py/Source.lean` are
written by `tools/gen_py.py`, which prints the syntax trees of `/repo` as Python's own parser (the module `ast`) gives them.
-/
namespace Verif.Py

/-- Python's binary operators `+ - * & | ^ << >> // %` -/
inductive BinOp where | add | sub | mul | and | or | xor | shl | shr | floordiv | mod
  deriving DecidableEq, Repr

/-- Python's comparisons `== != < <= > >=` -/
inductive CmpOp where | eq | ne | lt | le | gt | ge
  deriving DecidableEq, Repr

/-- an integer type of numpy: signed or not, number of bits -/
structure Ty where
  signed : Bool
  width : Nat
  deriving DecidableEq, Repr

abbrev u8 : Ty := ⟨false, 8⟩
abbrev u16 : Ty := ⟨false, 16⟩
abbrev u32 : Ty := ⟨false, 32⟩
abbrev u64 : Ty := ⟨false, 64⟩
abbrev i32 : Ty := ⟨true, 32⟩
abbrev i64 : Ty := ⟨true, 64⟩

/-- expressions -/
inductive Expr where
  /-- an integer constant -/
  | num (n : Int)
  /-- `True` and `False` -/
  | bool (b : Bool)
  /-- a string constant -/
  | str (s : String)
  /-- a variable -/
  | var (x : String)
  /-- `self.f` -/
  | self (f : String)
  /-- `a.f` -/
  | attr (a : Expr) (f : String)
  /-- `a[i]` -/
  | item (a i : Expr)
  | bin (op : BinOp) (a b : Expr)
  | cmp (op : CmpOp) (a b : Expr)
  /-- `~a` -/
  | inv (a : Expr)
  /-- `a and b` -/
  | and (a b : Expr)
  /-- `a or b` -/
  | or (a b : Expr)
  /-- `not a` -/
  | not (a : Expr)
  /-- `a if c else b` -/
  | ite (c a b : Expr)
  /-- `np.uint32(a)` and so on -/
  | cast (t : Ty) (a : Expr)
  /-- `f(args)` -/
  | call (f : String) (args : Expr)
  /-- `self.f(args)` -/
  | meth (f : String) (args : Expr)
  /-- tuples and lists of arguments -/
  | nil
  | cons (a b : Expr)
  deriving Repr

/-- statements -/
inductive Stmt where
  | pass
  | seq (a b : Stmt)
  /-- `target = e`; the target is a variable, `self.f`, `a[i]` or a tuple of targets -/
  | assign (target e : Expr)
  /-- `a = b = e` -/
  | assign2 (a b e : Expr)
  /-- `target op= e` -/
  | aug (op : BinOp) (target e : Expr)
  /-- an expression as a statement -/
  | expr (e : Expr)
  | ret (e : Expr)
  | ite (c : Expr) (a b : Stmt)
  /-- `for x in e: body` -/
  | for (x : String) (e : Expr) (body : Stmt)
  /-- `while c: body` -/
  | while (c : Expr) (body : Stmt)
  /-- `continue` -/
  | continue
  /-- `break` -/
  | break
  /-- `raise NotImplementedError()` -/
  | raise
  deriving Repr

/-- A function or method. `args`, `result` (`results` for a tuple) and `locals` are the types in the decorator `optional_njit`, if it
has one. -/
structure Fun where
  params : List String
  args : Option (List Ty) := none
  result : Option Ty := none
  locals : List (String × Ty) := []
  body : Stmt
  results : Option (List Ty) := none
  deriving Repr

end Verif.Py
