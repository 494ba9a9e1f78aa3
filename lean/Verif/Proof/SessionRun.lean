import Verif.Proof.SessionValue
import Verif.Props.Store
import Verif.Props.Observer

/-!
Lemmas for C79: what the samples of a measurement show, and how they come to the file.
-/

namespace Mdf

/-! ### The channels of the layout -/

/-- A prepared channel and the one it was made of. -/
structure PreparedFrom (c0 c : Chan) : Prop where
  kind : (c.type, c.bitCount, c.invalidFlag) = prepareKind c0.type c0.dataType c0.bitCount c0.invalidFlag
  dataType : c.dataType = c0.dataType
  invalidPos : c.invalidFlag = false → c.invalidPos = c0.invalidPos

theorem foldl_prepared (cs : List Chan) : ∀ (l : Layout), (∀ c ∈ l.chans, ∃ c0, (c0 ∈ cs ∨ c0.invalidPos = 0) ∧ PreparedFrom c0 c) →
    ∀ c ∈ (cs.foldl Layout.step l).chans, ∃ c0, (c0 ∈ cs ∨ c0.invalidPos = 0) ∧ PreparedFrom c0 c := by
  intro l h
  have key : ∀ (ds : List Chan) (l : Layout), (∀ d ∈ ds, d ∈ cs) →
      (∀ c ∈ l.chans, ∃ c0, (c0 ∈ cs ∨ c0.invalidPos = 0) ∧ PreparedFrom c0 c) →
      ∀ c ∈ (ds.foldl Layout.step l).chans, ∃ c0, (c0 ∈ cs ∨ c0.invalidPos = 0) ∧ PreparedFrom c0 c := by
    intro ds
    induction ds with
    | nil => intro l _ h; exact h
    | cons d ds ih =>
      intro l hd h
      rw [List.foldl_cons]
      refine ih _ (fun x hx => hd x (List.mem_cons_of_mem _ hx)) ?_
      intro c hc
      unfold Layout.step at hc
      simp only [List.mem_append, List.mem_singleton] at hc
      rcases hc with hc | hc
      · exact h c hc
      · refine ⟨d, Or.inl (hd d List.mem_cons_self), ?_⟩
        subst hc
        by_cases hf : (d.prepare l.byteOffset).invalidFlag = true
        · rw [if_pos hf]
          exact ⟨rfl, rfl, fun h => by rw [show Chan.invalidFlag _ = (d.prepare l.byteOffset).invalidFlag from rfl, hf] at h; cases h⟩
        · rw [if_neg hf]
          exact ⟨rfl, rfl, fun _ => rfl⟩
  exact key cs l (fun _ h => h) h

theorem result_prepared {cs : List Chan} {c : Chan} (h : c ∈ (prepareGroup cs).result) (h0 : ∀ c ∈ cs, c.invalidPos = 0) :
    ∃ c0, c0.invalidPos = 0 ∧ PreparedFrom c0 c := by
  unfold Layout.result at h
  obtain ⟨d, hd, rfl⟩ := List.mem_map.1 h
  obtain ⟨c0, h1, h2⟩ := foldl_prepared cs { chans := [], byteOffset := 0, nofDataBytes := 0, invalidBits := 0 } (by simp) d hd
  exact ⟨c0, h1.elim (h0 c0) id, h2.kind, h2.dataType, h2.invalidPos⟩

theorem PreparedFrom.sizes {c0 c : Chan} (h : PreparedFrom c0 c) (hn : c.Numeric) :
    (c.bitCount = 8 ∨ c.bitCount = 16 ∨ c.bitCount = 32 ∨ c.bitCount = 64) ∧
    (c.dataType = .floatLe ∨ c.dataType = .floatBe → c.bitCount = 32 ∨ c.bitCount = 64) := by
  have hk := h.kind
  have hd := h.dataType
  obtain ⟨n1, n2, n3, n4⟩ := hn
  have hb : c.bitCount = (prepareBits c0.dataType c0.bitCount).1 := by
    unfold prepareKind at hk
    cases ht : c0.type <;> simp only [ht] at hk <;> injection hk with k1 k2 <;> injection k2 with k2 k3
    all_goals first
      | exact k2
      | exact absurd k1 n2
      | exact absurd k1 n3
      | exact absurd k1 n4
  rw [hb, hd]
  rw [hd] at n1
  unfold prepareBits
  rcases n1 with e | e | e | e | e | e <;> simp only [e] <;> (try simp) <;> (split <;> omega)

theorem Ses.layout_of {s : Ses} {g k : Nat} {c : Chan} (hc : s.chan g k = some c) :
    ∃ cs ∈ s.groups, s.groups[g]? = some cs ∧ s.layout g = prepareGroup cs ∧ c ∈ (prepareGroup cs).result := by
  unfold Ses.chan Ses.layout at hc
  rw [List.getD_eq_getElem?_getD] at hc
  cases hg : s.groups[g]? with
  | none => rw [hg] at hc; simp [prepareGroup, Layout.result] at hc
  | some cs =>
    rw [hg] at hc
    refine ⟨cs, List.mem_of_getElem? hg, rfl, ?_, List.mem_of_getElem? hc⟩
    unfold Ses.layout
    rw [List.getD_eq_getElem?_getD, hg]
    rfl

theorem Ses.Fits.inRecord {s : Ses} (hf : s.Fits) {g k : Nat} {c : Chan} (hc : s.chan g k = some c) {buf : Bytes}
    (hl : buf.length = (s.layout g).recordSize) : InRecord c buf ∧ c.nofDataBytes = (s.layout g).nofDataBytes := by
  obtain ⟨cs, h1, -, h3, h4⟩ := Ses.layout_of hc
  obtain ⟨f1, f2, f3, f4⟩ := hf.layout cs h1
  obtain ⟨_, _, hall, _, hrs⟩ := C09_layout_disjoint cs f1
  obtain ⟨a1, a2, a3⟩ := hall c h4
  have hnd : c.nofDataBytes = (prepareGroup cs).nofDataBytes := by
    unfold Layout.result at h4
    obtain ⟨d, _, rfl⟩ := List.mem_map.1 h4
    rfl
  rw [h3] at hl
  refine ⟨⟨a1, by rw [hnd]; exact a2, by rw [hnd]; omega, by omega, fun h => ?_⟩, by rw [h3]; exact hnd⟩
  have := a3 h
  rw [hnd]
  omega

theorem Ses.Fits.promised {s : Ses} (hf : s.Fits) {g k : Nat} {c : Chan} (hc : s.chan g k = some c) {buf : Bytes}
    (hl : buf.length = (s.layout g).recordSize) (hk : c.Numeric ∨ c.Sized ∨ c.Unsized) {i : Nat} (hi : i < max 1 c.arraySize) :
    Promised c i buf := by
  obtain ⟨hr, hnd⟩ := hf.inRecord hc hl
  obtain ⟨cs, h1, -, h3, h4⟩ := Ses.layout_of hc
  obtain ⟨f1, f2, f3, f4⟩ := hf.layout cs h1
  obtain ⟨c0, hz, hp⟩ := result_prepared h4 f4
  have hkind : (c.Numeric ∧ (c.bitCount = 8 ∨ c.bitCount = 16 ∨ c.bitCount = 32 ∨ c.bitCount = 64) ∧
      (c.dataType = .floatLe ∨ c.dataType = .floatBe → c.bitCount = 32 ∨ c.bitCount = 64)) ∨ c.Sized ∨ c.Unsized := by
    rcases hk with hn | hs
    · exact Or.inl ⟨hn, hp.sizes hn⟩
    · exact Or.inr hs
  refine ⟨hr, hi, ?_, hkind⟩
  by_cases hfl : c.invalidFlag = true
  · exact (hr.validPos hfl hi).1
  · have hb : 8 ≤ c.bitCount := by
      rcases hkind with ⟨_, h, _⟩ | h | h
      · omega
      · have := h.2.2.1; have := h.2.2.2.1; omega
      · have := h.2.2.1; omega
    have hd : 1 ≤ c.dataBytes := by unfold Chan.dataBytes; omega
    have hsp := span_of_index c hi
    have hm : i ≤ c.dataBytes * i := Nat.le_mul_of_pos_left _ hd
    have h5 := hr.inside
    have h6 := hr.data
    have h7 := hr.small
    unfold Chan.ValidPosOk
    rw [hp.invalidPos (by simpa using hfl), hz]
    omega

/-- Two channels of a group do not overlap. -/
theorem Ses.Fits.before {s : Ses} (hf : s.Fits) {g k k' : Nat} {c c' : Chan} (hc : s.chan g k = some c) (hc' : s.chan g k' = some c')
    (hne : k' ≠ k) : c'.Before c ∨ c.Before c' := by
  obtain ⟨cs, h1, -, h3, -⟩ := Ses.layout_of hc
  obtain ⟨_, hpw, _, _, _⟩ := C09_layout_disjoint cs (hf.layout cs h1).1
  unfold Ses.chan at hc hc'
  rw [h3] at hc hc'
  rw [List.pairwise_iff_getElem] at hpw
  obtain ⟨hp', ea⟩ := List.getElem?_eq_some_iff.mp hc'
  obtain ⟨hq', eb⟩ := List.getElem?_eq_some_iff.mp hc
  rcases Nat.lt_or_gt_of_ne hne with h | h
  · left; rw [← ea, ← eb]; exact hpw _ _ hp' hq' h
  · right; rw [← ea, ← eb]; exact hpw _ _ hq' hp' h

/-! ### The buffers -/

/-- The buffers have the size of their records. -/
def SesBuf.Sized (b : SesBuf) (s : Ses) : Prop := ∀ g, (b.buf g).length = (s.layout g).recordSize

theorem Ses.init_sized (s : Ses) : s.init.Sized s := fun _ => List.length_replicate

/-- The array indexes of the calls are in range. -/
def InRange (s : Ses) (calls : List AppCall) : Prop :=
  ∀ g k v valid i c, AppCall.set g k v valid i ∈ calls → s.chan g k = some c → i < max 1 c.arraySize

theorem set_spec {s : Ses} (hf : s.Fits) {b b' : SesBuf} (hb : b.Sized s) {g k : Nat} {v : SetVal} {valid : Bool} {i : Nat}
    (hi : ∀ c, s.chan g k = some c → i < max 1 c.arraySize) (hs : b.set s g k v valid i = some b') :
    ∃ c out sd', s.chan g k = some c ∧ c.setValue v valid i (b.buf g) (b.sd g k) = some (out, sd') ∧ FramedBy c (b.buf g) out ∧
      b.sd g k <+: sd' ∧ b' = { buf := fun g' => if g' = g then out else b.buf g',
                                sd := fun g' k' => if g' = g ∧ k' = k then sd' else b.sd g' k' } := by
  unfold SesBuf.set at hs
  cases hc : s.chan g k with
  | none => rw [hc] at hs; cases hs
  | some c =>
    rw [hc] at hs
    dsimp only at hs
    obtain ⟨out, sd', e1, e2, e3⟩ := setValue_done (hf.inRecord hc (hb g)).1 v valid (hi c hc) (b.sd g k)
    rw [e1] at hs
    exact ⟨c, out, sd', rfl, e1, e2, e3, (Option.some.inj hs).symm⟩

theorem set_sized {s : Ses} (hf : s.Fits) {b b' : SesBuf} (hb : b.Sized s) {g k : Nat} {v : SetVal} {valid : Bool} {i : Nat}
    (hi : ∀ c, s.chan g k = some c → i < max 1 c.arraySize) (hs : b.set s g k v valid i = some b') :
    b'.Sized s ∧ ∀ g' k', b.sd g' k' <+: b'.sd g' k' := by
  obtain ⟨c, out, sd', h1, h2, h3, h4, rfl⟩ := set_spec hf hb hi hs
  refine ⟨fun g' => ?_, fun g' k' => ?_⟩
  · dsimp only
    by_cases hg : g' = g
    · rw [if_pos hg, h3.len, hg]; exact hb g
    · rw [if_neg hg]; exact hb g'
  · dsimp only
    by_cases hg : g' = g ∧ k' = k
    · rw [if_pos hg, hg.1, hg.2]; exact h4
    · rw [if_neg hg]; exact List.prefix_refl _

/-- The samples made by the calls. -/
def samplesOf (s : Ses) : List AppCall → SesBuf → List Sample
  | [], _ => []
  | .set g k v valid i :: cs, b =>
    match b.set s g k v valid i with
    | some b' => samplesOf s cs b'
    | none => []
  | .save g time :: cs, b => b.sample s g time :: samplesOf s cs b
  | .other _ :: cs, b => samplesOf s cs b

/-- The buffers after the calls. -/
def bufAfter (s : Ses) : List AppCall → SesBuf → Option SesBuf
  | [], b => some b
  | .set g k v valid i :: cs, b => (b.set s g k v valid i).bind (bufAfter s cs)
  | .save _ _ :: cs, b => bufAfter s cs b
  | .other _ :: cs, b => bufAfter s cs b

theorem run_bufAfter {s : Ses} {q : WCfg} (calls : List AppCall) : ∀ {st st' : SesBuf × W}, s.run q calls st = some st' →
    bufAfter s calls st.1 = some st'.1 := by
  induction calls with
  | nil => intro st st' h; cases h; rfl
  | cons a calls ih =>
    intro st st' h
    rw [Ses.run] at h
    obtain ⟨m, hm, hr⟩ := Option.bind_eq_some_iff.1 h
    cases a with
    | set g k v valid i =>
      simp only [Ses.step] at hm
      obtain ⟨b, hb, rfl⟩ := Option.map_eq_some_iff.1 hm
      rw [bufAfter, hb]
      exact ih hr
    | save g time =>
      simp only [Ses.step] at hm
      split at hm
      · obtain ⟨w, hw, rfl⟩ := Option.map_eq_some_iff.1 hm
        exact ih (st := (st.1, w)) hr
      · cases hm
    | other a =>
      rw [bufAfter]
      cases a with
      | add x => simp [Ses.step] at hm
      | _ =>
        simp only [Ses.step] at hm
        obtain ⟨w, hw, rfl⟩ := Option.map_eq_some_iff.1 hm
        exact ih (st := (st.1, w)) hr

theorem bufAfter_sized {s : Ses} (hf : s.Fits) (calls : List AppCall) : ∀ {b b' : SesBuf}, b.Sized s → InRange s calls →
    bufAfter s calls b = some b' → b'.Sized s ∧ ∀ g k, b.sd g k <+: b'.sd g k := by
  induction calls with
  | nil => intro b b' hb _ h; cases h; exact ⟨hb, fun _ _ => List.prefix_refl _⟩
  | cons a calls ih =>
    intro b b' hb hi h
    have hi' : InRange s calls := fun g k v valid i c hm => hi g k v valid i c (List.mem_cons_of_mem _ hm)
    cases a with
    | set g' k' v valid i =>
      rw [bufAfter] at h
      obtain ⟨m, hm, hr⟩ := Option.bind_eq_some_iff.1 h
      obtain ⟨h1, h2⟩ := set_sized hf hb (fun c hc => hi g' k' v valid i c List.mem_cons_self hc) hm
      obtain ⟨h3, h4⟩ := ih h1 hi' hr
      exact ⟨h3, fun g k => (h2 g k).trans (h4 g k)⟩
    | save g' time => exact ih hb hi' h
    | other a => exact ih hb hi' h

/-- All samples have the size of their records. -/
theorem samplesOf_sized {s : Ses} (hf : s.Fits) (calls : List AppCall) : ∀ {b b' : SesBuf}, b.Sized s → InRange s calls →
    bufAfter s calls b = some b' → ∀ smp ∈ samplesOf s calls b, ∃ g time, AppCall.save g time ∈ calls ∧
      smp.time = time ∧ smp.id = s.id g ∧ smp.vlsd = none ∧ smp.data.length = (s.layout g).recordSize := by
  induction calls with
  | nil => intro b b' _ _ _ smp h; cases h
  | cons a calls ih =>
    intro b b' hb hi h smp hs
    have hi' : InRange s calls := fun g k v valid i c hm => hi g k v valid i c (List.mem_cons_of_mem _ hm)
    have wrap : (∃ g time, AppCall.save g time ∈ calls ∧ smp.time = time ∧ smp.id = s.id g ∧ smp.vlsd = none ∧
        smp.data.length = (s.layout g).recordSize) → ∃ g time, AppCall.save g time ∈ a :: calls ∧ smp.time = time ∧
          smp.id = s.id g ∧ smp.vlsd = none ∧ smp.data.length = (s.layout g).recordSize := by
      rintro ⟨g, t, h1, h2⟩
      exact ⟨g, t, List.mem_cons_of_mem _ h1, h2⟩
    cases a with
    | set g' k' v valid i =>
      rw [bufAfter] at h
      obtain ⟨m, hm, hr⟩ := Option.bind_eq_some_iff.1 h
      obtain ⟨h1, h2⟩ := set_sized hf hb (fun c hc => hi g' k' v valid i c List.mem_cons_self hc) hm
      rw [samplesOf, hm] at hs
      exact wrap (ih h1 hi' hr smp hs)
    | save g' time =>
      rw [samplesOf] at hs
      rcases List.mem_cons.1 hs with rfl | hs
      · exact ⟨g', time, List.mem_cons_self, rfl, rfl, rfl, hb g'⟩
      · exact wrap (ih hb hi' h smp hs)
    | other a => exact wrap (ih hb hi' h smp hs)

/-- The record shows what was set. -/
def Shows (c : Chan) (i : Nat) (buf sd : Bytes) (cur : Option (SetVal × Bool)) : Prop :=
  (cur = none → c.type ≠ .variableLength) →
    ∀ full, sd <+: full → full.length < 2 ^ 64 → c.channelValue full buf i = c.expected cur

/-- The calls on the channel are such that the values can be promised. -/
def CallsOk (c : Chan) (g k : Nat) (calls : List AppCall) : Prop :=
  ∀ v valid i, AppCall.set g k v valid i ∈ calls → v.Suits c ∧ (c.type = .variableLength → valid = true)

theorem set_shows {s : Ses} (hf : s.Fits) {b b' : SesBuf} (hb : b.Sized s) {g k : Nat} {c : Chan} (hc : s.chan g k = some c)
    (hk : c.Numeric ∨ c.Sized ∨ c.Unsized) {i : Nat} (hi : i < max 1 c.arraySize) {cur : Option (SetVal × Bool)}
    (hsh : Shows c i (b.buf g) (b.sd g k) cur) {g' k' : Nat} {v : SetVal} {valid : Bool} {i' : Nat}
    (hi' : ∀ c, s.chan g' k' = some c → i' < max 1 c.arraySize)
    (hok : g' = g → k' = k → v.Suits c ∧ (c.type = .variableLength → valid = true)) (hs : b.set s g' k' v valid i' = some b') :
    Shows c i (b'.buf g) (b'.sd g k) (if g' = g ∧ k' = k ∧ i' = i then some (v, valid) else cur) := by
  obtain ⟨c', out, sd', h1, h2, h3, h4, rfl⟩ := set_spec hf hb hi' hs
  have hp := hf.promised hc (hb g) hk hi
  by_cases hg : g' = g
  · subst hg
    dsimp only
    rw [if_pos rfl]
    by_cases hkk : k' = k
    · subst hkk
      rw [hc] at h1
      obtain rfl := Option.some.inj h1
      obtain ⟨hsu, hvl⟩ := hok rfl rfl
      rw [if_pos ⟨rfl, rfl⟩]
      by_cases hii : i' = i
      · subst hii
        rw [if_pos ⟨rfl, rfl, rfl⟩]
        obtain ⟨out', sd'', e1, e2⟩ := setValue_own hp v valid (b.sd g' k') hsu hvl
        rw [h2] at e1
        cases e1
        exact fun _ full hpre hfl => e2 full hpre hfl
      · rw [if_neg (fun h => hii h.2.2)]
        -- another element of an array of numbers
        rcases hp.kind with ⟨hn, hsz, hfl⟩ | hs' | hs'
        · cases v with
          | num x =>
            have hp' := hf.promised hc (hb g') hk (hi' c hc)
            obtain ⟨out', e1, e2, -⟩ := setNumber_own hp' hn hsz hfl x valid (b.sd g' k') hsu
            have : c.setNumber x valid i' (b.buf g') (b.sd g' k') = some (out, sd') := h2
            rw [this] at e1
            cases e1
            have hsame := e2.same hp hsz (hi' c hc) (fun h => hii h.symm)
            intro hvl full hpre hfl
            rw [channelValue_congr hp hsame]
            exact hsh hvl full hpre hfl
          | text t =>
            exfalso
            have := hsu.1
            rcases hn.1 with e | e | e | e | e | e <;> rcases this with g | g <;> simp [e] at g
          | bytes t =>
            exfalso
            have := hsu.1
            rcases hn.1 with e | e | e | e | e | e <;> rcases this with g | g | g <;> simp [e] at g
        · exfalso
          have := hs'.2.1
          have := hi' c hc
          omega
        · exfalso
          have := hs'.2.1
          have := hi' c hc
          omega
    · rw [if_neg (fun h => hkk h.2.symm), if_neg (fun h => hkk h.2.1)]
      obtain ⟨hr', hnd'⟩ := hf.inRecord h1 (hb g')
      obtain ⟨_, hnd⟩ := hf.inRecord hc (hb g')
      have hsame := h3.same hp hr' (hnd'.trans hnd.symm) (hf.before hc h1 hkk)
      intro hvl full hpre hfl
      rw [channelValue_congr hp hsame]
      exact hsh hvl full hpre hfl
  · dsimp only
    rw [if_neg (fun h => hg h.symm), if_neg (fun h => hg h.1.symm), if_neg (fun h => hg h.1)]
    exact hsh

/-- What the samples of a group show. -/
theorem samples_show {s : Ses} (hf : s.Fits) {g k : Nat} {c : Chan} (hc : s.chan g k = some c)
    (hk : c.Numeric ∨ c.Sized ∨ c.Unsized) {i : Nat} (hi : i < max 1 c.arraySize) (full : Bytes) (hfull : full.length < 2 ^ 64)
    (calls : List AppCall) : ∀ {b b' : SesBuf} {cur : Option (SetVal × Bool)}, b.Sized s → InRange s calls → CallsOk c g k calls →
      bufAfter s calls b = some b' → b'.sd g k <+: full → Shows c i (b.buf g) (b.sd g k) cur →
      (c.type = .variableLength → none ∉ savedAs g k i cur calls) →
      ((samplesOf s calls b).filter fun x => decide (x.id = s.id g)).map (fun x => c.channelValue full x.data i) =
        (savedAs g k i cur calls).map c.expected := by
  induction calls with
  | nil => intros; rfl
  | cons a calls ih =>
    intro b b' cur hb hr hok h hfl hsh hne
    have hr' : InRange s calls := fun g k v valid i c hm => hr g k v valid i c (List.mem_cons_of_mem _ hm)
    have hok' : CallsOk c g k calls := fun v valid i hm => hok v valid i (List.mem_cons_of_mem _ hm)
    cases a with
    | set g' k' v valid i' =>
      rw [bufAfter] at h
      obtain ⟨m, hm, hrun⟩ := Option.bind_eq_some_iff.1 h
      have hin := fun c hc => hr g' k' v valid i' c List.mem_cons_self hc
      rw [samplesOf, hm]
      exact ih (set_sized hf hb hin hm).1 hr' hok' hrun hfl
        (set_shows hf hb hc hk hi hsh hin (fun e1 e2 => hok v valid i' (by rw [← e1, ← e2]; exact List.mem_cons_self)) hm) hne
    | save g' time =>
      rw [samplesOf, savedAs]
      by_cases hg : g' = g
      · subst hg
        rw [if_pos rfl, List.filter_cons_of_pos (by simp [SesBuf.sample]), List.map_cons, List.map_cons]
        rw [savedAs, if_pos rfl] at hne
        congr 1
        · exact hsh (fun e hv => hne hv (by rw [e]; exact List.mem_cons_self)) full
            (((bufAfter_sized hf calls hb hr' h).2 g' k).trans hfl) hfull
        · exact ih hb hr' hok' h hfl hsh (fun hv hm => hne hv (List.mem_cons_of_mem _ hm))
      · have hid : ¬ (b.sample s g' time).id = s.id g := by
          show ¬ s.id g' = s.id g
          unfold Ses.id
          omega
        rw [if_neg hg, List.filter_cons_of_neg (by simpa using hid)]
        rw [savedAs, if_neg hg] at hne
        exact ih hb hr' hok' h hfl hsh hne
    | other a => exact ih hb hr' hok' h hfl hsh hne

/-! ### The master time -/

theorem timestampBytes_length {c : Chan} {tk : Ticks} {rel : Int} {data : Bytes} (h : c.timestampBytes tk rel = some data) :
    data.length = c.bitCount / 8 := by
  unfold Chan.timestampBytes at h
  cases hd : c.dataType <;> simp only [hd] at h
  all_goals first
    | exact intBytes_length h
    | exact floatBytes_length h
    | cases h

theorem render_length {s : Ses} (hf : s.Fits) {g : Nat} (smp : Sample) (hid : smp.id = s.id g)
    (hl : smp.data.length = (s.layout g).recordSize) : (s.render smp).length = smp.data.length := by
  have hg : smp.id - s.base = g := by rw [hid]; unfold Ses.id; omega
  unfold Ses.render
  rw [hg]
  cases hm : s.master g with
  | none => rfl
  | some m =>
    cases hst : smp.stamp with
    | none => rfl
    | some t =>
      dsimp only
      cases hc : s.chan g m.1 with
      | none => rfl
      | some c =>
        dsimp only
        cases ht : c.timestampBytes m.2 (subTime smp.time t) with
        | none => rfl
        | some data =>
          dsimp only
          have hlen := timestampBytes_length ht
          obtain ⟨hr, -⟩ := hf.inRecord hc hl
          have := bytes_le_span c
          have := hr.inside
          have := hr.data
          simp only [List.length_append, List.length_take, List.length_drop]
          omega

/-- The calculated master time does not change what the other channels show. -/
theorem render_shows {s : Ses} (hf : s.Fits) {g k : Nat} {c : Chan} (hc : s.chan g k = some c) (hk : c.Numeric ∨ c.Sized ∨ c.Unsized)
    {i : Nat} (hi : i < max 1 c.arraySize) (hmaster : ∀ tk, s.master g ≠ some (k, tk)) (smp : Sample) (hid : smp.id = s.id g)
    (hl : smp.data.length = (s.layout g).recordSize) (full : Bytes) :
    c.channelValue full (s.render smp) i = c.channelValue full smp.data i := by
  have hg : smp.id - s.base = g := by rw [hid]; unfold Ses.id; omega
  unfold Ses.render
  rw [hg]
  cases hm : s.master g with
  | none => rfl
  | some m =>
    cases hst : smp.stamp with
    | none => rfl
    | some t =>
      dsimp only
      cases hc' : s.chan g m.1 with
      | none => rfl
      | some c' =>
        dsimp only
        cases ht : c'.timestampBytes m.2 (subTime smp.time t) with
        | none => rfl
        | some data =>
          dsimp only
          have hlen := timestampBytes_length ht
          obtain ⟨hr', hnd'⟩ := hf.inRecord hc' hl
          obtain ⟨_, hnd⟩ := hf.inRecord hc hl
          have hsp := bytes_le_span c'
          obtain ⟨out, e1, e2⟩ := wrBytes_framed hr' (off := c'.byteOffset) (data := data) (Nat.le_refl _) (by omega)
          have hin := hr'.inside
          have hda := hr'.data
          rw [wrBytes_eq_some (by omega)] at e1
          rw [Option.some.inj e1]
          have hne : m.1 ≠ k := by
            intro h
            exact hmaster m.2 (by rw [hm, ← h])
          exact channelValue_congr (hf.promised hc hl hk hi)
            (e2.same (hf.promised hc hl hk hi) hr' (hnd'.trans hnd.symm) (hf.before hc hc' hne)) full

/-! ### The writer -/

theorem ses_run_append {s : Ses} {q : WCfg} (c1 : List AppCall) : ∀ (c2 : List AppCall) (st : SesBuf × W),
    s.run q (c1 ++ c2) st = (s.run q c1 st).bind (s.run q c2) := by
  induction c1 with
  | nil => intro c2 st; rfl
  | cons a c1 ih =>
    intro c2 st
    show (s.step q st a).bind (s.run q (c1 ++ c2)) = ((s.step q st a).bind (s.run q c1)).bind (s.run q c2)
    rw [Option.bind_assoc]
    congr 1
    funext x
    exact ih c2 x

theorem next_added (cfg : WCfg) (fin last : Bool) (q : List Sample) : ∀ w : W, (W.next cfg fin last q w).added = w.added := by
  induction q with
  | nil => intro w; rfl
  | cons s q ih =>
    intro w
    simp only [W.next]
    split
    · rfl
    · split
      · rw [ih]; rfl
      · rfl

theorem takeNext_added (cfg : WCfg) (fin last : Bool) (w : W) : (w.takeNext cfg fin last).added = w.added := next_added ..

theorem store_added (cfg : WCfg) (s : Sample) (fin last : Bool) (w : W) : (w.store cfg s fin last).added = w.added := by
  unfold W.store
  split
  · rw [takeNext_added]; rfl
  · rw [takeNext_added]; rfl

theorem clean_added (cfg : WCfg) (last : Bool) (w : W) : (w.clean cfg last).added = w.added := by
  unfold W.clean
  split <;> rfl

theorem save_added (cfg : WCfg) (w : W) : (w.save cfg).added = w.added := by
  unfold W.save
  split
  · dsimp only
    split <;> rfl
  · rfl

/-- Only `SaveSample` adds samples. -/
theorem step_added {cfg : WCfg} {w w' : W} {a : Act} (ha : ∀ x, a ≠ .add x) (h : w.step cfg a = some w') : w'.added = w.added := by
  cases a with
  | add x => exact absurd rfl (ha x)
  | start t => simp only [W.step] at h; split at h <;> cases h; rfl
  | recalculate => simp only [W.step] at h; split at h <;> cases h; rfl
  | requestStop => simp only [W.step] at h; split at h <;> cases h; rfl
  | stopped t => simp only [W.step] at h; split at h <;> cases h; rfl
  | finalize => simp only [W.step] at h; cases h; rfl
  | wake =>
    simp only [W.step] at h
    split at h
    · split at h
      · cases h; exact clean_added ..
      · split at h
        · cases h; rfl
        · split at h <;> cases h
          · exact save_added ..
          · rfl
        · cases h; exact clean_added ..
        · cases h; rfl
    · cases h
  | opened ok =>
    simp only [W.step] at h
    split at h
    · split at h <;> cases h <;> rfl
    · cases h
  | enter =>
    simp only [W.step] at h
    split at h
    · cases h; rw [takeNext_added]; rfl
    · cases h
  | store more =>
    simp only [W.step] at h
    split at h
    · split at h
      · split at h
        · split at h <;> cases h
          · rw [store_added]
          · rfl
        · cases h; rw [store_added]
      · cases h; rw [takeNext_added]; rfl
    · cases h
  | close =>
    simp only [W.step] at h
    split at h
    · split at h <;> cases h <;> rfl
    · cases h

/-- The calls as the queue sees them. -/
theorem ses_acts {s : Ses} {q : WCfg} (calls : List AppCall) : ∀ {st st' : SesBuf × W}, s.run q calls st = some st' →
    ∃ acts, W.run q acts st.2 = some st'.2 ∧ (∀ a ∈ acts, (∃ x, a = .add x) ∨ .other a ∈ calls) ∧
      ((∀ g time, .save g time ∉ calls) → st'.2.added = st.2.added) := by
  induction calls with
  | nil => intro st st' h; cases h; exact ⟨[], rfl, by simp, fun _ => rfl⟩
  | cons a calls ih =>
    intro st st' h
    rw [Ses.run] at h
    obtain ⟨m, hm, hr⟩ := Option.bind_eq_some_iff.1 h
    obtain ⟨acts, h1, h2, h3⟩ := ih hr
    have h2' : ∀ x ∈ acts, (∃ y, x = .add y) ∨ .other x ∈ a :: calls :=
      fun x hx => (h2 x hx).elim Or.inl fun h => Or.inr (List.mem_cons_of_mem _ h)
    have h3' : (∀ g time, .save g time ∉ a :: calls) → st'.2.added = m.2.added :=
      fun h => h3 fun g t hm => h g t (List.mem_cons_of_mem _ hm)
    cases a with
    | set g k v valid i =>
      simp only [Ses.step] at hm
      obtain ⟨b, hb, rfl⟩ := Option.map_eq_some_iff.1 hm
      exact ⟨acts, h1, h2', h3'⟩
    | save g time =>
      simp only [Ses.step] at hm
      split at hm
      · obtain ⟨w, hw, rfl⟩ := Option.map_eq_some_iff.1 hm
        refine ⟨.add (st.1.sample s g time) :: acts, ?_, ?_, ?_⟩
        · rw [W.run, hw]; exact h1
        · intro x hx
          rcases List.mem_cons.1 hx with rfl | hx
          · exact Or.inl ⟨_, rfl⟩
          · exact h2' x hx
        · intro h
          exact absurd List.mem_cons_self (h g time)
      · cases hm
    | other a =>
      have hstep : ∃ w, st.2.step q a = some w ∧ m = (st.1, w) ∧ ∀ x, a ≠ .add x := by
        cases a with
        | add x => simp [Ses.step] at hm
        | _ =>
          simp only [Ses.step] at hm
          obtain ⟨w, hw, rfl⟩ := Option.map_eq_some_iff.1 hm
          exact ⟨w, hw, rfl, by simp⟩
      obtain ⟨w, hw, rfl, hna⟩ := hstep
      refine ⟨a :: acts, ?_, ?_, ?_⟩
      · rw [W.run, hw]; exact h1
      · intro x hx
        rcases List.mem_cons.1 hx with rfl | hx
        · exact Or.inr List.mem_cons_self
        · exact h2' x hx
      · intro h
        rw [h3' h]
        exact step_added hna hw

theorem stops_run {q : WCfg} (acts : List Act) : ∀ {w w' : W}, Stops w → W.run q acts w = some w' →
    Stops w' ∧ (w'.quit = false → w.quit = false) := by
  induction acts with
  | nil => intro w w' hs h; cases h; exact ⟨hs, id⟩
  | cons a acts ih =>
    intro w w' hs h
    rw [W.run] at h
    obtain ⟨m, hm, hr⟩ := Option.bind_eq_some_iff.1 h
    obtain ⟨h1, h2⟩ := ih (hs.step a hm) hr
    refine ⟨h1, fun hq => ?_⟩
    have hmq := h2 hq
    cases hw : w.quit
    · rfl
    · rw [(step_shape hs a hm).quit hw] at hmq; cases hmq

/-- The samples saved before the stop is requested. -/
theorem ses_added {s : Ses} {q : WCfg} (calls : List AppCall) : ∀ {st st' : SesBuf × W}, s.run q calls st = some st' → Stops st.2 →
    st'.2.quit = false → st'.2.added.map Sample.core = st.2.added.map Sample.core ++ (samplesOf s calls st.1).map Sample.core ∧
      ∀ g time, .save g time ∈ calls → g < s.groups.length := by
  induction calls with
  | nil => intro st st' h _ _; cases h; simp [samplesOf]
  | cons a calls ih =>
    intro st st' h hs hq
    rw [Ses.run] at h
    obtain ⟨m, hm, hr⟩ := Option.bind_eq_some_iff.1 h
    cases a with
    | set g k v valid i =>
      simp only [Ses.step] at hm
      obtain ⟨b, hb, rfl⟩ := Option.map_eq_some_iff.1 hm
      rw [samplesOf, hb]
      obtain ⟨e1, e2⟩ := ih hr hs hq
      exact ⟨e1, by simpa using e2⟩
    | save g time =>
      simp only [Ses.step] at hm
      split at hm
      · rename_i hg
        obtain ⟨w, hw, rfl⟩ := Option.map_eq_some_iff.1 hm
        have hs' := hs.step _ hw
        obtain ⟨acts, h1, -, -⟩ := ses_acts calls hr
        have hq1 := (stops_run acts hs' h1).2 hq
        obtain ⟨e1, e2⟩ := ih (st := (st.1, w)) hr hs' hq
        have hw0 : st.2.quit = false := by
          cases hh : st.2.quit
          · rfl
          · rw [(step_shape hs _ hw).quit hh] at hq1; cases hq1
        have hpc : st.2.pc ≠ .gone := by
          intro hgone
          have := hs.quit (by rw [hgone]; rfl)
          rw [this] at hw0; cases hw0
        simp only [W.step, if_neg hpc] at hw
        refine ⟨?_, ?_⟩
        · rw [e1, ← Option.some.inj hw]
          simp [samplesOf, Sample.core]
        · intro g' t' hmem
          rcases List.mem_cons.1 hmem with he | hmem
          · cases he; exact hg
          · exact e2 g' t' hmem
      · cases hm
    | other a =>
      have hstep : ∃ w, st.2.step q a = some w ∧ m = (st.1, w) ∧ ∀ x, a ≠ .add x := by
        cases a with
        | add x => simp [Ses.step] at hm
        | _ =>
          simp only [Ses.step] at hm
          obtain ⟨w, hw, rfl⟩ := Option.map_eq_some_iff.1 hm
          exact ⟨w, hw, rfl, by simp⟩
      obtain ⟨w, hw, rfl, hna⟩ := hstep
      obtain ⟨e1, e2⟩ := ih (st := (st.1, w)) hr (hs.step _ hw) hq
      rw [step_added hna hw] at e1
      exact ⟨e1, by simpa using e2⟩

end Mdf
