import Verif.Spec.Groups

namespace Mdf

theorem pad8_append (b : Bytes) : ∃ z, pad8 b = b ++ z := ⟨_, rfl⟩

/-- Bytes after the end of the file do not change what is read. -/
theorem stream_append (d : DgData) (b ext : Bytes) (h : ∀ pos len, d.data = .dt pos len → 24 ≤ len ∧ pos + len ≤ b.length) :
    d.stream (b ++ ext) = d.stream b := by
  unfold DgData.stream
  split
  · rfl
  · rename_i pos len hd
    obtain ⟨h1, h2⟩ := h pos len hd
    rw [List.drop_append_of_le_length (by omega), List.take_append_of_le_length]
    rw [List.length_drop]; split <;> omega
  · rfl

/-- The data group can take another save: with compression if it has no DT block, without if the DT block is the last of the
file. -/
def SaveReady (compressed : Bool) (f : DgFile) (i : Nat) : Prop :=
  ∃ d, f.dgs[i]? = some d ∧
    (if compressed then ∀ pos len, d.data ≠ .dt pos len else
      d.data = .none ∨ ∃ pos len, d.data = .dt pos len ∧ pos + len = f.bytes.length)

/-- What a save does if the data group can take it. -/
structure Saved (compressed : Bool) (f f' : DgFile) (i : Nat) (data : Bytes) : Prop where
  ok : f'.Ok
  len : f'.dgs.length = f.dgs.length
  bytes : ∃ ext, f'.bytes = f.bytes ++ ext
  others : ∀ j, j ≠ i → f'.dgs[j]? = f.dgs[j]?
  self : ∀ d d', f.dgs[i]? = some d → f'.dgs[i]? = some d' → d'.stream f'.bytes = d.stream f.bytes ++ data
  ready : SaveReady compressed f' i

theorem Ok.set {f : DgFile} (h : f.Ok) (i : Nat) (d : DgData) (b : Bytes) (hb : ∃ ext, b = f.bytes ++ ext)
    (hd : ∀ pos len, d.data = .dt pos len → 24 ≤ len ∧ pos + len ≤ b.length) : DgFile.Ok { bytes := b, dgs := f.dgs.set i d } := by
  intro e he pos len hp
  obtain ⟨ext, rfl⟩ := hb
  rcases List.mem_or_eq_of_mem_set he with h1 | rfl
  · obtain ⟨a, b⟩ := h e h1 pos len hp
    exact ⟨a, by rw [List.length_append]; omega⟩
  · exact hd pos len hp

theorem save_ready (enc : Bytes → Bytes) (c : Bool) (f : DgFile) (ok : f.Ok) (i : Nat) (p : SavePart) (hr : SaveReady c f i) :
    ∃ f', f.save enc c i p = some f' ∧ Saved c f f' i p.data := by
  obtain ⟨d, hd, hr⟩ := hr
  have hi : i < f.dgs.length := (List.getElem?_eq_some_iff.mp hd).1
  have hset : ∀ e : DgData, (f.dgs.set i e)[i]? = some e := fun e => by rw [List.getElem?_set_self hi]
  have hoth : ∀ (e : DgData) j, j ≠ i → (f.dgs.set i e)[j]? = f.dgs[j]? := fun e j h => by rw [List.getElem?_set_ne (Ne.symm h)]
  unfold DgFile.save
  rw [hd]
  cases c with
  | true =>
    simp only [if_true] at hr ⊢
    refine ⟨_, rfl, ?_⟩
    unfold DgFile.savePacked
    by_cases he : p.data = []
    · rw [if_pos he, he]
      exact ⟨ok, rfl, ⟨[], (List.append_nil _).symm⟩, fun _ _ => rfl,
        fun d1 d2 h1 h2 => by rw [h1] at h2; cases h2; rw [List.append_nil], ⟨d, hd, by simpa using hr⟩⟩
    · rw [if_neg he]
      cases hdd : d.data with
      | dt pos len => exact absurd hdd (hr pos len)
      | none =>
        dsimp only
        refine ⟨Ok.set ok i _ _ ⟨_, rfl⟩ (fun pos len h => nomatch h), by simp, ⟨_, rfl⟩, hoth _, ?_, ⟨_, hset _, by simp⟩⟩
        intro d1 d2 h1 h2
        rw [hd] at h1; cases h1
        have h2' := (hset _).symm.trans h2; cases h2'
        unfold DgData.stream; rw [hdd]; simp
      | hl chunks =>
        dsimp only
        refine ⟨Ok.set ok i _ _ ⟨_, rfl⟩ (fun pos len h => nomatch h), by simp, ⟨_, rfl⟩, hoth _, ?_, ⟨_, hset _, by simp⟩⟩
        intro d1 d2 h1 h2
        rw [hd] at h1; cases h1
        have h2' := (hset _).symm.trans h2; cases h2'
        unfold DgData.stream; rw [hdd]; simp
  | false =>
    simp only [Bool.false_eq_true, if_false] at hr ⊢
    unfold DgFile.savePlain
    rcases hr with hdd | ⟨pos, len, hdd, hend⟩
    · rw [hdd]
      dsimp only
      obtain ⟨z, hz⟩ := pad8_append f.bytes
      have hh : dtHeader.length = 24 := rfl
      refine ⟨_, rfl, Ok.set ok i _ _ ⟨z ++ dtHeader ++ p.data, by rw [hz]; simp⟩ ?_, by simp, ⟨z ++ dtHeader ++ p.data, by rw [hz]; simp⟩, hoth _, ?_,
        ⟨_, hset _, ?_⟩⟩
      · intro pos len h
        cases h
        simp only [List.length_append, hh]; omega
      · intro d1 d2 h1 h2
        rw [hd] at h1; cases h1
        have h2' := (hset _).symm.trans h2; cases h2'
        unfold DgData.stream; rw [hdd]
        dsimp only
        rw [List.nil_append, show (pad8 f.bytes).length + 24 = (pad8 f.bytes ++ dtHeader).length by rw [List.length_append, hh],
          List.drop_left, List.take_of_length_le]
        split <;> omega
      · rw [if_neg (by decide)]
        exact Or.inr ⟨_, _, rfl, by simp only [List.length_append, hh]; omega⟩
    · rw [hdd]
      dsimp only
      obtain ⟨h24, _⟩ := ok d (List.mem_of_getElem? hd) pos len hdd
      refine ⟨_, rfl, Ok.set ok i _ _ ⟨_, rfl⟩ ?_, by simp, ⟨_, rfl⟩, hoth _, ?_, ⟨_, hset _, ?_⟩⟩
      · intro pos len h
        cases h
        simp only [List.length_append]; omega
      · intro d1 d2 h1 h2
        rw [hd] at h1; cases h1
        have h2' := (hset _).symm.trans h2; cases h2'
        unfold DgData.stream; rw [hdd]
        dsimp only
        rw [List.drop_append_of_le_length (by omega), List.take_of_length_le, List.take_of_length_le]
        · rw [List.length_drop]; split <;> omega
        · simp only [List.length_append, List.length_drop]; split <;> omega
      · rw [if_neg (by decide)]
        exact Or.inr ⟨_, _, rfl, by simp only [List.length_append]; omega⟩

/-- The saves of `parts` were added to the data groups of `order`. -/
structure Added (f f' : DgFile) (add : Nat → Bytes) : Prop where
  ok : f'.Ok
  len : f'.dgs.length = f.dgs.length
  bytes : ∃ ext, f'.bytes = f.bytes ++ ext
  streams : ∀ i d d', f.dgs[i]? = some d → f'.dgs[i]? = some d' → d'.stream f'.bytes = d.stream f.bytes ++ add i

theorem Added.refl (f : DgFile) (ok : f.Ok) : Added f f (fun _ => []) :=
  ⟨ok, rfl, ⟨[], (List.append_nil _).symm⟩, fun i d d' h1 h2 => by rw [h1] at h2; cases h2; rw [List.append_nil]⟩

theorem Added.trans {f g h : DgFile} {a b : Nat → Bytes} (h1 : Added f g a) (h2 : Added g h b) : Added f h (fun i => a i ++ b i) := by
  obtain ⟨e1, he1⟩ := h1.bytes
  obtain ⟨e2, he2⟩ := h2.bytes
  refine ⟨h2.ok, h2.len.trans h1.len, ⟨e1 ++ e2, by rw [he2, he1, List.append_assoc]⟩, ?_⟩
  intro i d d' hd hd'
  have hi : i < g.dgs.length := by rw [h1.len]; exact (List.getElem?_eq_some_iff.mp hd).1
  have hg : g.dgs[i]? = some g.dgs[i] := List.getElem?_eq_getElem hi
  rw [h2.streams i _ d' hg hd', h1.streams i d _ hd hg, List.append_assoc]

theorem Saved.added {c : Bool} {f f' : DgFile} {i : Nat} {data : Bytes} (ok : f.Ok) (h : Saved c f f' i data) :
    Added f f' (fun j => if j = i then data else []) := by
  refine ⟨h.ok, h.len, h.bytes, ?_⟩
  intro j d d' hd hd'
  by_cases hj : j = i
  · subst hj; rw [if_pos rfl]; exact h.self d d' hd hd'
  · rw [if_neg hj, List.append_nil]
    have := h.others j hj
    rw [hd', hd] at this; cases this
    obtain ⟨ext, he⟩ := h.bytes
    rw [he]
    exact stream_append d _ _ (ok d (List.mem_of_getElem? hd))

theorem pass_ready (enc : Bytes → Bytes) (c : Bool) (parts : Nat → SavePart) (order : List Nat) (nd : order.Nodup) (f : DgFile) (ok : f.Ok)
    (hr : ∀ i ∈ order, SaveReady c f i)
    (hw : c = true ∨ order.length ≤ 1 ∨ ∀ i ∈ order, ∃ d, f.dgs[i]? = some d ∧ d.data = .none) :
    ∃ f', f.pass enc c parts order = some f' ∧ Added f f' (fun i => if i ∈ order then (parts i).data else []) ∧
      (c = true ∨ order.length ≤ 1 → ∀ i ∈ order, SaveReady c f' i) ∧ (∀ i, i ∉ order → f'.dgs[i]? = f.dgs[i]?) := by
  induction order generalizing f with
  | nil => exact ⟨f, rfl, by simpa using Added.refl f ok, fun _ i hi => absurd hi (by simp), fun _ _ => rfl⟩
  | cons i order ih =>
    obtain ⟨f1, h1, s1⟩ := save_ready enc c f ok i (parts i) (hr i (by simp))
    obtain ⟨hni, nd'⟩ := List.nodup_cons.mp nd
    have hne : ∀ j ∈ order, j ≠ i := fun j hj e => hni (e ▸ hj)
    have hr1 : ∀ j ∈ order, SaveReady c f1 j := by
      intro j hj
      rcases hw with rfl | hw | hw
      · obtain ⟨d, hd, hdd⟩ := hr j (by simp [hj])
        exact ⟨d, by rw [s1.others j (hne j hj)]; exact hd, by simpa using hdd⟩
      · have : order = [] := by cases order with | nil => rfl | cons _ _ => simp at hw
        rw [this] at hj; cases hj
      · obtain ⟨d, hd, hdd⟩ := hw j (by simp [hj])
        refine ⟨d, by rw [s1.others j (hne j hj)]; exact hd, ?_⟩
        split
        · intro pos len; rw [hdd]; simp
        · exact Or.inl hdd
    have hw1 : c = true ∨ order.length ≤ 1 ∨ ∀ j ∈ order, ∃ d, f1.dgs[j]? = some d ∧ d.data = .none := by
      rcases hw with h | h | h
      · exact Or.inl h
      · right; left; simp at h; rw [h]; simp
      · right; right
        intro j hj
        obtain ⟨d, hd, hdd⟩ := h j (by simp [hj])
        exact ⟨d, by rw [s1.others j (hne j hj)]; exact hd, hdd⟩
    obtain ⟨f2, h2, a2, r2, o2⟩ := ih nd' f1 s1.ok hr1 hw1
    refine ⟨f2, ?_, ?_, ?_, ?_⟩
    · show (f.save enc c i (parts i)).bind _ = _
      rw [h1]; exact h2
    · have h := (s1.added ok).trans a2
      have e : (fun j => (if j = i then (parts i).data else []) ++ (if j ∈ order then (parts j).data else [])) =
          fun j => if j ∈ i :: order then (parts j).data else [] := by
        funext j
        by_cases hj : j = i
        · subst hj; rw [if_pos rfl, if_neg hni, List.append_nil, if_pos (by simp)]
        · rw [if_neg hj, List.nil_append]
          by_cases hm : j ∈ order
          · rw [if_pos hm, if_pos (by simp [hm])]
          · rw [if_neg hm, if_neg (by simp [hj, hm])]
      rw [← e]; exact h
    · intro hc j hj
      rcases hc with rfl | hc
      · rcases List.mem_cons.mp hj with rfl | hj
        · obtain ⟨d, hd, hdd⟩ := s1.ready
          exact ⟨d, by rw [o2 _ hni]; exact hd, by simpa using hdd⟩
        · exact r2 (Or.inl rfl) j hj
      · have : order = [] := by cases order with | nil => rfl | cons _ _ => simp at hc
        subst this
        have e : f2 = f1 := by
          have : (some f1 : Option DgFile) = some f2 := h2
          cases this; rfl
        rw [e]
        rcases List.mem_cons.mp hj with rfl | hj
        · exact s1.ready
        · cases hj
    · intro j hj
      rw [o2 j (fun h => hj (by simp [h])), s1.others j (fun h => hj (by simp [h]))]

theorem passes_ready (enc : Bytes → Bytes) (c : Bool) (order : List Nat) (nd : order.Nodup) (saves : List (Nat → SavePart)) (f : DgFile)
    (ok : f.Ok) (hr : ∀ i ∈ order, SaveReady c f i)
    (hw : c = true ∨ order.length ≤ 1 ∨ (saves.length ≤ 1 ∧ ∀ i ∈ order, ∃ d, f.dgs[i]? = some d ∧ d.data = .none)) :
    ∃ f', f.passes enc c order saves = some f' ∧ Added f f' (fun i => if i ∈ order then savedFor i saves else []) ∧
      (∀ i, i ∉ order → f'.dgs[i]? = f.dgs[i]?) := by
  induction saves generalizing f with
  | nil => exact ⟨f, rfl, by simpa [savedFor] using Added.refl f ok, fun _ _ => rfl⟩
  | cons parts saves ih =>
    obtain ⟨f1, h1, a1, r1, o1⟩ := pass_ready enc c parts order nd f ok hr (by
      rcases hw with h | h | h
      · exact Or.inl h
      · exact Or.inr (Or.inl h)
      · exact Or.inr (Or.inr h.2))
    by_cases hc : c = true ∨ order.length ≤ 1
    · obtain ⟨f2, h2, a2, o2⟩ := ih f1 a1.ok (r1 hc) (by
        rcases hc with h | h
        · exact Or.inl h
        · exact Or.inr (Or.inl h))
      refine ⟨f2, ?_, ?_, fun i hi => (o2 i hi).trans (o1 i hi)⟩
      · show (f.pass enc c parts order).bind _ = _
        rw [h1]; exact h2
      · have h := a1.trans a2
        have e : (fun i => (if i ∈ order then (parts i).data else []) ++ (if i ∈ order then savedFor i saves else [])) =
            fun i => if i ∈ order then savedFor i (parts :: saves) else [] := by
          funext i; unfold savedFor; split <;> simp
        rw [← e]; exact h
    · have hs : saves = [] := by
        rcases hw with h | h | ⟨h, _⟩
        · exact absurd (Or.inl h) hc
        · exact absurd (Or.inr h) hc
        · cases saves with | nil => rfl | cons _ _ => simp at h
      subst hs
      refine ⟨f1, ?_, ?_, o1⟩
      · show (f.pass enc c parts order).bind _ = _
        rw [h1]; rfl
      · have e : (fun i => if i ∈ order then (parts i).data else []) = fun i => if i ∈ order then savedFor i [parts] else [] := by
          funext i; unfold savedFor; simp
        rw [← e]; exact a1

theorem activeCount_append (old new : List DgData) (h : ∀ d ∈ new, d.isNew = true) : new.length ≤ activeCount (old ++ new) := by
  unfold activeCount
  rw [List.foldl_append]
  generalize List.foldl (fun n d => if d.isNew then n + 1 else 0) 0 old = k
  have key : ∀ (new : List DgData), (∀ d ∈ new, d.isNew = true) → ∀ k, new.length ≤ List.foldl (fun n d => if d.isNew then n + 1 else 0) k new ∧
      k ≤ List.foldl (fun n d => if d.isNew then n + 1 else 0) k new := by
    intro new
    induction new with
    | nil => intro _ k; simp
    | cons d new ih =>
      intro h k
      rw [List.foldl_cons, if_pos (h d (by simp))]
      obtain ⟨h1, h2⟩ := ih (fun e he => h e (by simp [he])) (k + 1)
      refine ⟨?_, by omega⟩
      have : new.length + k + 1 ≤ List.foldl (fun n d => if d.isNew then n + 1 else 0) (k + 1) new := by
        clear h1 h2
        have h' : ∀ e ∈ new, e.isNew = true := fun e he => h e (by simp [he])
        clear ih h
        induction new generalizing k with
        | nil => simp
        | cons e new ih2 =>
          rw [List.foldl_cons, if_pos (h' e (by simp))]
          have := ih2 (k + 1) (fun x hx => h' x (by simp [hx]))
          simp only [List.length_cons]; omega
      simp only [List.length_cons]; omega
  exact (key new h k).1

theorem nodup_short {l : List Nat} (nd : l.Nodup) (h : ∀ i ∈ l, ∀ j ∈ l, i = j) : l.length ≤ 1 := by
  match l with
  | [] => simp
  | [_] => simp
  | a :: b :: l =>
    have := h a (by simp) b (by simp)
    subst this
    simp at nd

end Mdf
