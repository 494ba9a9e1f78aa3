import Verif.Spec.Mdf3
import Verif.Props.Layout

/-!
Lemmas about MDF 3 channels: positions and the layout of the record.
-/

namespace Mdf

theorem setByteOffset_get (c : Cn3) (n : Nat) (h : n < 2 ^ 32) :
    (c.setByteOffset n).byteOffset = n % 65536 ∧ (c.setByteOffset n).bitOffset = 0 := by
  unfold Cn3.setByteOffset kBitOffset
  split
  · unfold Cn3.byteOffset Cn3.bitOffset u16
    dsimp only
    omega
  · unfold Cn3.byteOffset Cn3.bitOffset u16
    dsimp only
    omega

theorem setByteOffset_same (c : Cn3) (n : Nat) : (c.setByteOffset n).bits = c.bits ∧
    (c.setByteOffset n).signal = c.signal ∧ (c.setByteOffset n).cc = c.cc ∧ (c.setByteOffset n).master = c.master := by
  unfold Cn3.setByteOffset
  split <;> exact ⟨rfl, rfl, rfl, rfl⟩

theorem setByteOffset_dataBytes (c : Cn3) (n : Nat) : (c.setByteOffset n).dataBytes = c.dataBytes := by
  unfold Cn3.dataBytes
  rw [(setByteOffset_same c n).1]

theorem place3_total (cs : List Cn3) : ∀ size, (place3 size cs).2 = size + (cs.map Cn3.dataBytes).sum := by
  induction cs with
  | nil => intro size; rfl
  | cons c cs ih =>
    intro size
    show (place3 (size + (c.setByteOffset (size % 2 ^ 32)).dataBytes) cs).2 = _
    rw [ih, setByteOffset_dataBytes, List.map_cons, List.sum_cons]
    omega

theorem place3_get (cs : List Cn3) : ∀ (size k : Nat), (place3 size cs).1[k]? =
    cs[k]?.map fun c => c.setByteOffset ((size + ((cs.take k).map Cn3.dataBytes).sum) % 2 ^ 32) := by
  induction cs with
  | nil => intro size k; rfl
  | cons c cs ih =>
    intro size k
    have e : (place3 size (c :: cs)).1 =
        c.setByteOffset (size % 2 ^ 32) :: (place3 (size + (c.setByteOffset (size % 2 ^ 32)).dataBytes) cs).1 := rfl
    rw [e]
    cases k with
    | zero => simp
    | succ k =>
      rw [List.getElem?_cons_succ, ih, List.getElem?_cons_succ, setByteOffset_dataBytes, List.take_succ_cons, List.map_cons,
        List.sum_cons, Nat.add_assoc]

theorem sum_take_le (l : List Nat) (k : Nat) : (l.take k).sum ≤ l.sum := by
  induction l generalizing k with
  | nil => simp
  | cons a l ih =>
    cases k with
    | zero => simp
    | succ k => rw [List.take_succ_cons, List.sum_cons, List.sum_cons]; have := ih k; omega

theorem sum_take_succ {l : List Nat} {k n : Nat} (h : l[k]? = some n) : (l.take (k + 1)).sum = (l.take k).sum + n := by
  rw [List.take_add_one, h, List.sum_append]
  simp

theorem sum_take_mono (l : List Nat) {j k : Nat} (h : j ≤ k) : (l.take j).sum ≤ (l.take k).sum := by
  have : l.take j = (l.take k).take j := by rw [List.take_take, Nat.min_eq_left h]
  rw [this]; exact sum_take_le _ _

end Mdf
