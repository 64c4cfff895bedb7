/-
Arrays as memory: `numpy` arrays of `np.uint32` are total functions from indices to words. Bounds are treated
explicitly where an index is computed at run time (see the individual models).
-/
namespace Verif

/-- contents of a `np.uint32` array (a structure around a function, so that stored words are evaluated when stored) -/
structure Mem where
  get : Nat → BitVec 32

instance : CoeFun Mem (fun _ => Nat → BitVec 32) := ⟨Mem.get⟩
instance : Inhabited Mem := ⟨⟨fun _ => 0⟩⟩

/-- `a[i] = v` -/
def Mem.set (m : Mem) (i : Nat) (v : BitVec 32) : Mem := ⟨fun j => if j = i then v else m j⟩

@[simp] theorem Mem.set_same (m : Mem) (i : Nat) (v) : (m.set i v) i = v := by simp [Mem.set]
theorem Mem.set_ne (m : Mem) {i j : Nat} (v) (h : j ≠ i) : (m.set i v) j = m j := by simp [Mem.set, h]

end Verif
