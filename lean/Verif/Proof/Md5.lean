import Verif.Model.Md5
import Verif.Spec.Md5
import Verif.Proof.Channel

/-! Lemmas about the MD5 checksum: one block. -/

namespace Mdf

theorem md5_f (x y z : BitVec 32) : z ^^^ (x &&& (y ^^^ z)) = (x &&& y) ||| (~~~x &&& z) := by
  apply BitVec.eq_of_getLsbD_eq
  intro i hi
  simp only [BitVec.getLsbD_xor, BitVec.getLsbD_and, BitVec.getLsbD_or, BitVec.getLsbD_not, hi, decide_true, Bool.true_and]
  cases x.getLsbD i <;> cases y.getLsbD i <;> cases z.getLsbD i <;> rfl

theorem md5_g (x y z : BitVec 32) : y ^^^ (z &&& (x ^^^ y)) = (x &&& z) ||| (y &&& ~~~z) := by
  apply BitVec.eq_of_getLsbD_eq
  intro i hi
  simp only [BitVec.getLsbD_xor, BitVec.getLsbD_and, BitVec.getLsbD_or, BitVec.getLsbD_not, hi, decide_true, Bool.true_and]
  cases x.getLsbD i <;> cases y.getLsbD i <;> cases z.getLsbD i <;> rfl

theorem md5_mask (x : BitVec 32) : x &&& 0xffffffff#32 = x := by
  rw [show (0xffffffff#32 : BitVec 32) = BitVec.allOnes 32 from by decide]
  exact BitVec.and_allOnes

theorem md5_rotate (x : BitVec 32) (s : Nat) (hs : s < 32) :
    (x <<< s) ||| ((x &&& 0xffffffff#32) >>> (32 - s)) = x.rotateLeft s := by
  rw [md5_mask, BitVec.rotateLeft_def, Nat.mod_eq_of_lt hs]

/-- The function, the variables of step i. -/
def rowOf (i : Nat) : Md5Row :=
  let fn := match i / 16 with | 0 => Md5Fun.f | 1 => .g | 2 => .h | _ => .i
  match i % 4 with
  | 0 => ⟨fn, .a, .b, .c, .d, rfcIndex i, rfcTable.getD i 0, rfcShift i⟩
  | 1 => ⟨fn, .d, .a, .b, .c, rfcIndex i, rfcTable.getD i 0, rfcShift i⟩
  | 2 => ⟨fn, .c, .d, .a, .b, rfcIndex i, rfcTable.getD i 0, rfcShift i⟩
  | _ => ⟨fn, .b, .c, .d, .a, rfcIndex i, rfcTable.getD i 0, rfcShift i⟩

theorem md5Rows_eq : md5Rows = (List.range 64).map rowOf := by decide +kernel

/-- The four variables in the order of step i. -/
def viewOf (i : Nat) (w : Md5Words) : RfcState :=
  match i % 4 with
  | 0 => ⟨w.a, w.b, w.c, w.d⟩
  | 1 => ⟨w.d, w.a, w.b, w.c⟩
  | 2 => ⟨w.c, w.d, w.a, w.b⟩
  | _ => ⟨w.b, w.c, w.d, w.a⟩

theorem rfcShift_lt (i : Nat) : rfcShift i < 32 := by
  unfold rfcShift
  split <;> omega

theorem fn_eval (i : Nat) (x y z : BitVec 32) :
    (match i / 16 with | 0 => Md5Fun.f | 1 => .g | 2 => .h | _ => .i : Md5Fun).eval x y z = rfcFun i x y z := by
  unfold rfcFun
  generalize i / 16 = q
  match q with
  | 0 => exact md5_f x y z
  | 1 => exact md5_g x y z
  | 2 => rfl
  | _ + 3 => rfl

theorem step_value (block : Bytes) (fn : Md5Fun) (a b c d : BitVec 32) (i : Nat) (hf : fn.eval b c d = rfcFun i b c d) :
    (let x := a + (fn.eval b c d + md5Get block (rfcIndex i) + rfcTable.getD i 0)
     ((x <<< rfcShift i) ||| ((x &&& 0xffffffff#32) >>> (32 - rfcShift i))) + b) =
    b + (a + rfcFun i b c d + rfcWord block (rfcIndex i) + rfcTable.getD i 0).rotateLeft (rfcShift i) := by
  show (((_ : BitVec 32) <<< rfcShift i) ||| ((_ &&& 0xffffffff#32) >>> (32 - rfcShift i))) + b = _
  rw [md5_rotate _ _ (rfcShift_lt i), hf, BitVec.add_comm, ← BitVec.add_assoc, ← BitVec.add_assoc]
  rfl

theorem step_view (block : Bytes) (w : Md5Words) (i : Nat) :
    viewOf (i + 1) (md5Step block w (rowOf i)) = rfcStep block (viewOf i w) i := by
  have hm : i % 4 = 0 ∨ i % 4 = 1 ∨ i % 4 = 2 ∨ i % 4 = 3 := by omega
  obtain h | h | h | h := hm
  · have h1 : (i + 1) % 4 = 1 := by omega
    simp only [viewOf, rowOf, h, h1, rfcStep]
    rw [← step_value block _ w.a w.b w.c w.d i (fn_eval i _ _ _)]
    rfl
  · have h1 : (i + 1) % 4 = 2 := by omega
    simp only [viewOf, rowOf, h, h1, rfcStep]
    rw [← step_value block _ w.d w.a w.b w.c i (fn_eval i _ _ _)]
    rfl
  · have h1 : (i + 1) % 4 = 3 := by omega
    simp only [viewOf, rowOf, h, h1, rfcStep]
    rw [← step_value block _ w.c w.d w.a w.b i (fn_eval i _ _ _)]
    rfl
  · have h1 : (i + 1) % 4 = 0 := by omega
    simp only [viewOf, rowOf, h, h1, rfcStep]
    rw [← step_value block _ w.b w.c w.d w.a i (fn_eval i _ _ _)]
    rfl

theorem steps_view (block : Bytes) (w : Md5Words) (n : Nat) :
    viewOf n (((List.range n).map rowOf).foldl (md5Step block) w) = (List.range n).foldl (rfcStep block) (viewOf 0 w) := by
  induction n with
  | zero => rfl
  | succ n ih =>
    rw [List.range_succ, List.map_append, List.foldl_append, List.foldl_append, ← ih]
    exact step_view block _ n

/-- The variables as the state of the specification. -/
def Md5Words.rfc (w : Md5Words) : RfcState := ⟨w.a, w.b, w.c, w.d⟩

theorem turn_rfc (w : Md5Words) (block : Bytes) : (md5Turn w block).rfc = rfcBlock w.rfc block := by
  have h := steps_view block w 64
  unfold md5Turn rfcBlock
  rw [md5Rows_eq]
  rw [show w.rfc = viewOf 0 w from rfl, ← h]
  simp only [Md5Words.rfc, viewOf, RfcState.mk.injEq]
  refine ⟨BitVec.add_comm _ _, BitVec.add_comm _ _, BitVec.add_comm _ _, BitVec.add_comm _ _⟩

end Mdf
