import Verif.Spec.CsvFiles
import Verif.Proof.CommentAttr
import Verif.Proof.XmlTags
import Verif.Proof.NumText

set_option linter.unusedSimpArgs false

namespace Mdf

theorem plain_keep (c : Byte) (h : (0x30#8 ≤ c ∧ c ≤ 0x39#8) ∨ (0x41#8 ≤ c ∧ c ≤ 0x5A#8) ∨ (0x61#8 ≤ c ∧ c ≤ 0x7A#8) ∨ c = 0x5F#8 ∨ c = 0x2D#8) :
    stripKeep c = true ∧ c < 0x80#8 := by
  have key : ∀ x : Fin 256, ((0x30#8 ≤ BitVec.ofFin x ∧ BitVec.ofFin x ≤ 0x39#8) ∨ (0x41#8 ≤ BitVec.ofFin x ∧ BitVec.ofFin x ≤ 0x5A#8) ∨
      (0x61#8 ≤ BitVec.ofFin x ∧ BitVec.ofFin x ≤ 0x7A#8) ∨ BitVec.ofFin x = 0x5F#8 ∨ BitVec.ofFin x = 0x2D#8) →
      stripKeep (BitVec.ofFin x) = true ∧ BitVec.ofFin x < (0x80#8 : Byte) := by decide +kernel
  exact key c.toFin h

theorem plain_decText (n : Nat) : PlainFileName (decText n) := fun c hc => Or.inl (decText_digits n c hc)

theorem plain_append {a b : Bytes} (ha : PlainFileName a) (hb : PlainFileName b) : PlainFileName (a ++ b) := by
  intro c hc
  rcases List.mem_append.1 hc with h | h
  · exact ha c h
  · exact hb c h

theorem plain_dgPart (n k : Nat) : PlainFileName (dgPart n k) := by
  unfold dgPart
  split
  · exact plain_append (by decide) (plain_decText k)
  · intro c hc; cases hc

theorem plain_cgPart (n k : Nat) {name : Bytes} (h : PlainFileName name) : PlainFileName (cgPart n k name) := by
  unfold cgPart
  split
  · exact plain_append (by decide) (plain_decText k)
  · split
    · exact plain_append (a := [0x5F#8]) (by decide) h
    · intro c hc; cases hc

theorem strip_eq {stem t : Bytes} (hs : AsciiText stem) (ht : PlainFileName t) : stripName (stem ++ t) = some (stem.filter stripKeep ++ t) := by
  unfold stripName
  rw [if_neg]
  · rw [List.filter_append]
    congr 2
    rw [List.filter_eq_self]
    exact fun c hc => (plain_keep c (ht c hc)).1
  · rw [Bool.not_eq_true, List.any_eq_false]
    intro c hc
    have : c < 0x80#8 := by
      rcases List.mem_append.1 hc with h | h
      · exact hs c h
      · exact (plain_keep c (ht c h)).2
    simp only [decide_eq_true_eq]
    bv_omega

/-! ### The work as a list -/

/-- The names and texts of the groups of a data group. -/
def groupWork (nofDg dgNo nofCg : Nat) : Nat → List CsvGroup → List (Bytes × Option Bytes)
  | _, [] => []
  | cgNo, g :: gs => (dgPart nofDg dgNo ++ cgPart nofCg cgNo g.name, g.text) :: groupWork nofDg dgNo nofCg (cgNo + 1) gs

/-- The names and texts of all groups. -/
def dataWork (nofDg : Nat) : Nat → List (List CsvGroup) → List (Bytes × Option Bytes)
  | _, [] => []
  | dgNo, dg :: dgs => groupWork nofDg dgNo (csvGroups dg).length 1 (csvGroups dg) ++ dataWork nofDg (dgNo + 1) dgs

/-- Doing the work. -/
def doWork (force : Bool) (out pre : Bytes) (work : List (Bytes × Option Bytes)) (disk : CsvDisk) : CsvDisk :=
  work.foldl (fun d w => csvOne force d (out, pre ++ w.1) w.2) disk

theorem groupLoop_eq (force : Bool) (out stem : Bytes) (hs : AsciiText stem) (nofDg dgNo nofCg : Nat) (gs : List CsvGroup)
    (hg : ∀ g ∈ gs, PlainFileName g.name) : ∀ (cgNo : Nat) (disk : CsvDisk),
    csvGroupLoop force out stem nofDg dgNo nofCg cgNo gs disk =
      some (doWork force out (stem.filter stripKeep) (groupWork nofDg dgNo nofCg cgNo gs) disk) := by
  induction gs with
  | nil => intro _ _; rfl
  | cons g gs ih =>
    intro cgNo disk
    rw [csvGroupLoop, strip_eq hs (plain_append (plain_dgPart _ _) (plain_cgPart _ _ (hg g (by simp))))]
    simp only []
    rw [ih (fun g' hg' => hg g' (by simp [hg']))]
    rfl

theorem dataLoop_eq (force : Bool) (out stem : Bytes) (hs : AsciiText stem) (nofDg : Nat) (dgs : List (List CsvGroup))
    (hg : ∀ dg ∈ dgs, ∀ g ∈ csvGroups dg, PlainFileName g.name) : ∀ (dgNo : Nat) (disk : CsvDisk),
    csvDataLoop force out stem nofDg dgNo dgs disk =
      some (doWork force out (stem.filter stripKeep) (dataWork nofDg dgNo dgs) disk) := by
  induction dgs with
  | nil => intro _ _; rfl
  | cons dg dgs ih =>
    intro dgNo disk
    rw [csvDataLoop, groupLoop_eq force out stem hs _ _ _ _ (hg dg (by simp))]
    simp only []
    rw [ih (fun d hd => hg d (by simp [hd]))]
    unfold doWork
    rw [dataWork, List.foldl_append]

/-! ### Different names -/

theorem decText_inj {a b : Nat} (h : decText a = decText b) : a = b := by
  rw [← digits_decText a, h, digits_decText]

theorem cgPart_start (n k : Nat) (name : Bytes) : (cgPart n k name).takeWhile isDig = [] := by
  unfold cgPart
  split
  · rfl
  · split <;> rfl

theorem dgPart_inj {n a b : Nat} (hn : 1 < n) {x y : Bytes} (hx : x.takeWhile isDig = []) (hy : y.takeWhile isDig = [])
    (h : dgPart n a ++ x = dgPart n b ++ y) : a = b := by
  unfold dgPart at h
  rw [if_pos hn, if_pos hn, List.append_assoc, List.append_assoc] at h
  have h2 := congrArg (List.takeWhile isDig) (List.append_cancel_left h)
  have key : ∀ (k : Nat) (z : Bytes), z.takeWhile isDig = [] → (decText k ++ z).takeWhile isDig = decText k := by
    intro k z hz
    rw [List.takeWhile_append_of_pos (fun c hc => decText_dig k c hc), hz, List.append_nil]
  rw [key a x hx, key b y hy] at h2
  exact decText_inj h2

theorem cgPart_inj {n a b : Nat} (hn : 1 < n) (hab : a ≠ b) {x y : Bytes} (hx : ¬ [0x43#8, 0x47#8, 0x5F#8] <+: x)
    (hy : ¬ [0x43#8, 0x47#8, 0x5F#8] <+: y) (hxy : x ≠ [] → y ≠ [] → x ≠ y) : cgPart n a x ≠ cgPart n b y := by
  have hw : ∀ k : Nat, wCG ++ decText k = 0x5F#8 :: ([0x43#8, 0x47#8, 0x5F#8] ++ decText k) := fun k => rfl
  unfold cgPart
  by_cases h1 : x = []
  · rw [if_pos ⟨hn, h1⟩]
    by_cases h2 : y = []
    · rw [if_pos ⟨hn, h2⟩]
      intro h
      exact hab (decText_inj (List.append_cancel_left h))
    · rw [if_neg (fun h => h2 h.2), if_pos hn, hw]
      intro h
      exact hy ⟨decText a, (List.cons.inj h).2⟩
  · rw [if_neg (fun h => h1 h.2), if_pos hn]
    by_cases h2 : y = []
    · rw [if_pos ⟨hn, h2⟩, hw]
      intro h
      exact hx ⟨decText b, (List.cons.inj h).2.symm⟩
    · rw [if_neg (fun h => h2 h.2), if_pos hn]
      intro h
      exact hxy h1 h2 (List.cons.inj h).2

theorem groupWork_mem (nofDg dgNo nofCg : Nat) (gs : List CsvGroup) : ∀ (cgNo : Nat) (w : Bytes × Option Bytes),
    w ∈ groupWork nofDg dgNo nofCg cgNo gs → ∃ k, cgNo ≤ k ∧ ∃ g ∈ gs, w = (dgPart nofDg dgNo ++ cgPart nofCg k g.name, g.text) := by
  induction gs with
  | nil => intro _ _ h; cases h
  | cons g gs ih =>
    intro cgNo w h
    rw [groupWork] at h
    rcases List.mem_cons.1 h with h | h
    · exact ⟨cgNo, Nat.le_refl _, g, by simp, h⟩
    · obtain ⟨k, hk, g', hg', hw⟩ := ih (cgNo + 1) w h
      exact ⟨k, by omega, g', by simp [hg'], hw⟩

theorem groupWork_nodup (nofDg dgNo nofCg : Nat) (gs : List CsvGroup) (hg : GoodNames gs) (hn : 1 < nofCg ∨ gs.length ≤ 1) :
    ∀ cgNo, ((groupWork nofDg dgNo nofCg cgNo gs).map (·.1)).Nodup := by
  induction gs with
  | nil => intro _; simp [groupWork]
  | cons g gs ih =>
    intro cgNo
    rw [groupWork, List.map_cons, List.nodup_cons]
    have hg' : GoodNames gs := by
      refine ⟨fun x hx => hg.plain x (by simp [hx]), fun x hx => hg.other x (by simp [hx]), ?_⟩
      have := hg.nodup
      rw [List.map_cons, List.filter_cons] at this
      split at this
      · exact (List.nodup_cons.1 this).2
      · exact this
    have hn' : 1 < nofCg ∨ gs.length ≤ 1 := by rcases hn with h | h; exact Or.inl h; right; simp at h; subst h; simp
    refine ⟨?_, ih hg' hn' (cgNo + 1)⟩
    intro hm
    obtain ⟨w, hw, he⟩ := List.mem_map.1 hm
    obtain ⟨k, hk, x, hx, rfl⟩ := groupWork_mem _ _ _ _ _ _ hw
    rcases hn with hn | hn
    · refine cgPart_inj hn (by omega : cgNo ≠ k) (hg.other g (by simp)) (hg.other x (by simp [hx])) ?_ (List.append_cancel_left he).symm
      intro h1 h2 h3
      have := hg.nodup
      rw [List.map_cons, List.filter_cons, if_pos (by simpa using h1), List.nodup_cons] at this
      exact this.1 (List.mem_filter.2 ⟨List.mem_map.2 ⟨x, hx, h3.symm⟩, by simpa using h1⟩)
    · simp at hn; subst hn; cases hx

theorem dataWork_mem (nofDg : Nat) (dgs : List (List CsvGroup)) : ∀ (dgNo : Nat) (w : Bytes × Option Bytes),
    w ∈ dataWork nofDg dgNo dgs → ∃ k n c name, dgNo ≤ k ∧ w.1 = dgPart nofDg k ++ cgPart n c name := by
  induction dgs with
  | nil => intro _ _ h; cases h
  | cons dg dgs ih =>
    intro dgNo w h
    rw [dataWork] at h
    rcases List.mem_append.1 h with h | h
    · obtain ⟨k, _, g, _, rfl⟩ := groupWork_mem _ _ _ _ _ _ h
      exact ⟨dgNo, _, _, _, Nat.le_refl _, rfl⟩
    · obtain ⟨k, n, c, name, hk, he⟩ := ih (dgNo + 1) w h
      exact ⟨k, n, c, name, by omega, he⟩

theorem dataWork_nodup (nofDg : Nat) (dgs : List (List CsvGroup)) (hg : ∀ dg ∈ dgs, GoodNames (csvGroups dg)) (hn : 1 < nofDg ∨ dgs.length ≤ 1) :
    ∀ dgNo, ((dataWork nofDg dgNo dgs).map (·.1)).Nodup := by
  induction dgs with
  | nil => intro _; simp [dataWork]
  | cons dg dgs ih =>
    intro dgNo
    rw [dataWork, List.map_append, List.nodup_append]
    have hn' : 1 < nofDg ∨ dgs.length ≤ 1 := by rcases hn with h | h; exact Or.inl h; right; simp at h; subst h; simp
    refine ⟨groupWork_nodup _ _ _ _ (hg dg (by simp)) (by omega) 1, ih (fun d hd => hg d (by simp [hd])) hn' (dgNo + 1), ?_⟩
    intro a ha b hb hab
    subst hab
    obtain ⟨w, hw, rfl⟩ := List.mem_map.1 ha
    obtain ⟨w', hw', he⟩ := List.mem_map.1 hb
    obtain ⟨k, _, g, _, rfl⟩ := groupWork_mem _ _ _ _ _ _ hw
    rcases hn with hn | hn
    · obtain ⟨k', n, c, name, hk', h1⟩ := dataWork_mem _ _ _ _ hw'
      rw [h1] at he
      have := dgPart_inj hn (cgPart_start _ _ _) (cgPart_start _ _ _) he
      omega
    · simp at hn; subst hn; cases hw'

theorem groupWork_texts (nofDg dgNo nofCg : Nat) (gs : List CsvGroup) : ∀ cgNo, (groupWork nofDg dgNo nofCg cgNo gs).map (·.2) = gs.map (·.text) := by
  induction gs with
  | nil => intro _; rfl
  | cons g gs ih => intro cgNo; rw [groupWork, List.map_cons, ih]; rfl

theorem dataWork_texts (nofDg : Nat) (dgs : List (List CsvGroup)) : ∀ dgNo,
    (dataWork nofDg dgNo dgs).map (·.2) = (dgs.flatMap csvGroups).map (·.text) := by
  induction dgs with
  | nil => intro _; rfl
  | cons dg dgs ih => intro dgNo; rw [dataWork, List.map_append, groupWork_texts, ih, List.flatMap_cons, List.map_append]

theorem jobs_eq (f : CsvInput) : f.jobs = f.groups.flatMap csvGroups := by
  unfold CsvInput.jobs
  congr 1
  funext dg
  unfold csvGroups
  apply List.filter_congr
  intro g _
  cases g.vlsd <;> by_cases h : g.nof = 0 <;> simp [h, Nat.pos_iff_ne_zero]

/-! ### Doing it -/

theorem doWork_other (force : Bool) (out pre : Bytes) (work : List (Bytes × Option Bytes)) : ∀ (disk : CsvDisk) (k : Bytes × Bytes),
    (∀ w ∈ work, k ≠ (out, pre ++ w.1)) → doWork force out pre work disk k = disk k := by
  induction work with
  | nil => intro _ _ _; rfl
  | cons w ws ih =>
    intro disk k h
    change doWork force out pre ws (csvOne force disk (out, pre ++ w.1) w.2) k = disk k
    rw [ih _ k (fun w' hw' => h w' (by simp [hw']))]
    have hk := h w (by simp)
    unfold csvOne
    split
    · rfl
    · cases w.2 with
      | none => rfl
      | some t => simp only []; rw [if_neg hk]

theorem doWork_done (force : Bool) (out pre : Bytes) (work : List (Bytes × Option Bytes)) : ∀ (disk : CsvDisk),
    (work.map (·.1)).Nodup → (force = true ∨ ∀ w ∈ work, disk (out, pre ++ w.1) = none) →
    ∀ (n t : Bytes), (n, some t) ∈ work → doWork force out pre work disk (out, pre ++ n) = some t := by
  induction work with
  | nil => intro _ _ _ _ _ h; cases h
  | cons w ws ih =>
    intro disk hn hf n t hm
    rw [List.map_cons, List.nodup_cons] at hn
    change doWork force out pre ws (csvOne force disk (out, pre ++ w.1) w.2) (out, pre ++ n) = some t
    rcases List.mem_cons.1 hm with h | h
    · subst h
      rw [doWork_other]
      · unfold csvOne
        rw [if_neg]
        · simp only []; rw [if_pos trivial]
        · rintro ⟨h1, h2⟩
          rcases hf with hf | hf
          · exact h2 hf
          · rw [hf _ (by simp)] at h1; cases h1
      · intro w' hw' he
        have := List.append_cancel_left (Prod.mk.inj he).2
        exact hn.1 (List.mem_map.2 ⟨w', hw', this.symm⟩)
    · refine ih _ hn.2 ?_ n t h
      rcases hf with hf | hf
      · exact Or.inl hf
      · right
        intro w' hw'
        unfold csvOne
        split
        · exact hf w' (by simp [hw'])
        · cases hw2 : w.2 with
          | none => exact hf w' (by simp [hw'])
          | some t' =>
            simp only []
            rw [if_neg]
            · exact hf w' (by simp [hw'])
            · intro he
              have := List.append_cancel_left (Prod.mk.inj he).2
              exact hn.1 (List.mem_map.2 ⟨w', hw', this⟩)

theorem csvOne_keeps (disk : CsvDisk) (key k : Bytes × Bytes) (text : Option Bytes) (t : Bytes) (h : disk k = some t) :
    csvOne false disk key text k = some t := by
  unfold csvOne
  by_cases hk : k = key
  · subst hk
    rw [if_pos ⟨by rw [h]; rfl, by simp⟩]; exact h
  · split
    · exact h
    · cases text with
      | none => exact h
      | some x => simp only []; rw [if_neg hk]; exact h

theorem groupLoop_keeps (out stem : Bytes) (a b c : Nat) (k : Bytes × Bytes) (t : Bytes) (gs : List CsvGroup) : ∀ (n : Nat) (disk disk' : CsvDisk),
    disk k = some t → csvGroupLoop false out stem a b c n gs disk = some disk' → disk' k = some t := by
  induction gs with
  | nil => intro n disk disk' h he; rw [csvGroupLoop] at he; cases he; exact h
  | cons g gs ih =>
    intro n disk disk' h he
    rw [csvGroupLoop] at he
    split at he
    · cases he
    · exact ih _ _ _ (csvOne_keeps _ _ _ _ _ h) he

theorem dataLoop_keeps (out stem : Bytes) (a : Nat) (k : Bytes × Bytes) (t : Bytes) (dgs : List (List CsvGroup)) : ∀ (n : Nat) (disk disk' : CsvDisk),
    disk k = some t → csvDataLoop false out stem a n dgs disk = some disk' → disk' k = some t := by
  induction dgs with
  | nil => intro n disk disk' h he; rw [csvDataLoop] at he; cases he; exact h
  | cons dg dgs ih =>
    intro n disk disk' h he
    rw [csvDataLoop] at he
    split at he
    · cases he
    · next hd => exact ih _ _ _ (groupLoop_keeps _ _ _ _ _ _ _ _ _ _ _ h hd) he

theorem csvRun_keeps (k : Bytes × Bytes) (t : Bytes) (fs : List CsvInput) : ∀ (s s' : Bytes × CsvDisk),
    s.2 k = some t → csvRun false fs s = some s' → s'.2 k = some t := by
  induction fs with
  | nil => intro s s' h he; rw [csvRun] at he; cases he; exact h
  | cons f fs ih =>
    intro s s' h he
    rw [csvRun] at he
    split at he
    · cases he
    · next s1 h1 =>
      refine ih s1 s' ?_ he
      unfold csvInput at h1
      obtain ⟨d, hd, rfl⟩ := Option.map_eq_some_iff.1 h1
      exact dataLoop_keeps _ _ _ _ _ _ _ _ _ h hd

end Mdf
