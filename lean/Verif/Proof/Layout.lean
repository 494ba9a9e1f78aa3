import Verif.Spec.Layout
import Verif.Proof.Channel

namespace Mdf

theorem prepare_span (c : Chan) (o : Nat) :
    (c.prepare o).span = (c.prepare 0).span ∧ (c.prepare o).validBits = (c.prepare 0).validBits ∧
    (c.prepare o).byteOffset = o % 2 ^ 32 ∧ (c.prepare o).bitOffset = 0 :=
  ⟨rfl, rfl, rfl, rfl⟩

theorem max_one_mul (a n : Nat) : (if n > 1 then a * n else a) = a * max 1 n := by
  split
  · rw [Nat.max_eq_right (by omega)]
  · rw [Nat.max_eq_left (by omega), Nat.mul_one]

theorem max_one (n : Nat) : (if n > 1 then n else 1) = max 1 n := by
  split <;> omega

/-- What holds of the loop variables. -/
structure Layout.Inv (l : Layout) : Prop where
  same : l.nofDataBytes = l.byteOffset
  inside : ∀ c ∈ l.chans, c.byteOffset + c.span ≤ l.byteOffset ∧ c.bitOffset = 0 ∧
    (c.invalidFlag = true → c.invalidPos + c.validBits ≤ l.invalidBits)
  apart : l.chans.Pairwise Chan.Before

theorem step_inv (l : Layout) (c : Chan) (inv : l.Inv)
    (h1 : l.byteOffset + (c.prepare 0).span < 2 ^ 32) (h2 : l.invalidBits + (c.prepare 0).validBits < 2 ^ 32) :
    (l.step c).Inv ∧ (l.step c).byteOffset = l.byteOffset + (c.prepare 0).span ∧
      (l.step c).invalidBits = l.invalidBits + (c.prepare 0).validBits ∧
      ∃ c', (l.step c).chans = l.chans ++ [c'] ∧
        c' = { c.prepare l.byteOffset with invalidPos := c'.invalidPos } := by
  obtain ⟨p1, p2, p3, p4⟩ := prepare_span c l.byteOffset
  generalize hc : c.prepare l.byteOffset = pc at *
  have hsz : (if pc.arraySize > 1 then pc.dataBytes * pc.arraySize else pc.dataBytes) % 2 ^ 32 = pc.span := by
    rw [max_one_mul]
    show pc.span % 2 ^ 32 = pc.span
    omega
  have hib : (if pc.invalidFlag then l.invalidBits + (if pc.arraySize > 1 then pc.arraySize else 1)
      else l.invalidBits) = l.invalidBits + pc.validBits := by
    rw [max_one]; unfold Chan.validBits; split <;> simp_all
  have hbo : (l.step c).byteOffset = l.byteOffset + pc.span := by
    unfold Layout.step; rw [hc]; dsimp only; rw [hsz]
  have hnd : (l.step c).nofDataBytes = l.byteOffset + pc.span := by
    unfold Layout.step; rw [hc]; dsimp only; rw [hsz, inv.same]; omega
  have hiv : (l.step c).invalidBits = l.invalidBits + pc.validBits := by
    unfold Layout.step; rw [hc]; dsimp only; exact hib
  have hch : (l.step c).chans = l.chans ++
      [if pc.invalidFlag then { pc with invalidPos := l.invalidBits % 2 ^ 32 } else pc] := by
    unfold Layout.step; rw [hc]
  generalize hnew : (if pc.invalidFlag then { pc with invalidPos := l.invalidBits % 2 ^ 32 } else pc) = nc at hch
  have hn : nc.byteOffset = pc.byteOffset ∧ nc.bitOffset = pc.bitOffset ∧ nc.span = pc.span ∧
      nc.validBits = pc.validBits ∧ nc.invalidFlag = pc.invalidFlag ∧
      (nc.invalidFlag = true → nc.invalidPos = l.invalidBits) ∧ nc = { pc with invalidPos := nc.invalidPos } := by
    rw [← hnew]
    by_cases hf : pc.invalidFlag = true
    · rw [if_pos hf]
      refine ⟨rfl, rfl, rfl, rfl, rfl, fun _ => ?_, rfl⟩
      show l.invalidBits % 2 ^ 32 = _
      omega
    · rw [if_neg hf]
      exact ⟨rfl, rfl, rfl, rfl, rfl, fun h => absurd h hf, rfl⟩
  obtain ⟨n1, n2, n3, n4, n5, n6, n7⟩ := hn
  have hb : nc.byteOffset = l.byteOffset := by rw [n1, p3]; omega
  refine ⟨⟨by rw [hnd, hbo], ?_, ?_⟩, by rw [hbo, p1], by rw [hiv, p2], nc, hch, n7⟩
  · intro x hx
    rw [hch, List.mem_append] at hx
    rw [hbo, hiv]
    rcases hx with hx | hx
    · obtain ⟨i1, i2, i3⟩ := inv.inside x hx
      exact ⟨by omega, i2, fun h => by have := i3 h; omega⟩
    · rw [List.mem_singleton] at hx
      subst hx
      refine ⟨by omega, by rw [n2, p4], fun h => ?_⟩
      rw [n6 h, n4]; omega
  · rw [hch, List.pairwise_append]
    refine ⟨inv.apart, List.pairwise_singleton _ _, ?_⟩
    intro a ha b hb'
    rw [List.mem_singleton] at hb'
    subst hb'
    obtain ⟨i1, _, i3⟩ := inv.inside a ha
    exact ⟨by omega, fun ha hb => by rw [n6 hb]; exact i3 ha⟩

theorem foldl_inv (cs : List Chan) : ∀ (l : Layout), l.Inv →
    l.byteOffset + (cs.map fun c => (c.prepare 0).span).sum < 2 ^ 32 →
    l.invalidBits + (cs.map fun c => (c.prepare 0).validBits).sum < 2 ^ 32 →
    (cs.foldl Layout.step l).Inv ∧
      (cs.foldl Layout.step l).byteOffset = l.byteOffset + (cs.map fun c => (c.prepare 0).span).sum ∧
      (cs.foldl Layout.step l).invalidBits = l.invalidBits + (cs.map fun c => (c.prepare 0).validBits).sum := by
  induction cs with
  | nil => intro l h _ _; exact ⟨h, by simp, by simp⟩
  | cons c cs ih =>
    intro l h h1 h2
    simp only [List.map_cons, List.sum_cons] at h1 h2
    obtain ⟨s1, s2, s3, _⟩ := step_inv l c h (by omega) (by omega)
    obtain ⟨r1, r2, r3⟩ := ih (l.step c) s1 (by omega) (by omega)
    simp only [List.foldl_cons, List.map_cons, List.sum_cons]
    exact ⟨r1, by omega, by omega⟩

/-- The prepared channels are the given ones, in the same order, up to position. -/
theorem foldl_chans (cs : List Chan) : ∀ (l : Layout),
    ∃ qs, (cs.foldl Layout.step l).chans = l.chans ++ qs ∧ qs.length = cs.length ∧
      ∀ (k : Nat) (c q : Chan), cs[k]? = some c → qs[k]? = some q → q.span = (c.prepare 0).span ∧
        q.validBits = (c.prepare 0).validBits := by
  induction cs with
  | nil => intro l; exact ⟨[], by simp, rfl, by simp⟩
  | cons c cs ih =>
    intro l
    obtain ⟨qs, h1, h2, h3⟩ := ih (l.step c)
    obtain ⟨p1, p2, _, _⟩ := prepare_span c l.byteOffset
    generalize hpc : c.prepare l.byteOffset = pc at *
    have hch : (l.step c).chans = l.chans ++
        [if pc.invalidFlag then { pc with invalidPos := l.invalidBits % 2 ^ 32 } else pc] := by
      unfold Layout.step; rw [hpc]
    refine ⟨(if pc.invalidFlag then { pc with invalidPos := l.invalidBits % 2 ^ 32 } else pc) :: qs, ?_, by simp [h2], ?_⟩
    · rw [List.foldl_cons, h1, hch]; simp
    · intro k d q hd hq
      cases k with
      | zero =>
        simp only [List.getElem?_cons_zero, Option.some.injEq] at hd hq
        subst hd; subst hq
        split
        · exact ⟨p1, p2⟩
        · exact ⟨p1, p2⟩
      | succ k =>
        simp only [List.getElem?_cons_succ] at hd hq
        exact h3 k d q hd hq

end Mdf
