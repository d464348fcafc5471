import Verif.Lemmas.BagLoader

/-!
# C86: processing a recorded data set
-/

namespace Rovio.BagLoader

open Node

variable {n nCam nPose : ℕ} {Img Q M : Type}

/-! ### Specification -/

/-- What is assumed of LWF's `updateSafe`: it processes measurements forward in time and does not touch the initial state. -/
structure Lawful (env : Env n nCam nPose Img Q M) : Prop where
  time : ∀ f, f.t ≤ (env.updateSafe f).t
  init : ∀ f, (env.updateSafe f).init = f.init

/-- The node callback a message of the bag stands for, if any. -/
def eventOf (env : Env n nCam nPose Img Q M) (e : Entry Img) : Option (Ev Img) :=
  match e.data with
  | .imu a g t => if e.topic = env.imuTopic then some (.imu a g t) else none
  | .image im t => if e.topic = env.cam0Topic then some (.image false im t) else if e.topic = env.cam1Topic then some (.image true im t) else none
  | .other => none

/-- The topics that are recorded, in order. -/
def recorded (nCam : ℕ) (f : Force) : List (Topic nCam) :=
  (if f.odometry then [.odometry] else []) ++ (if f.transform then [.transform] else []) ++
  (if f.extrinsics then (List.finRange (nCam + 1)).map .extrinsics else []) ++ (if f.imuBias then [.imuBias] else []) ++
  (if f.pcl then [.pcl] else []) ++ (if f.markers then [.markers] else []) ++ (if f.patch then [.patch] else [])

open Classical in
/-- The states of the filter at the updates that moved the estimate forward in time, for a sequence of calls into the filter. -/
noncomputable def estimates (env : Env n nCam nPose Img Q M) : FS n nCam nPose Q → List (Call nCam Img) → List (FS n nCam nPose Q)
  | _, [] => []
  | f, c :: cs => (if c = .update ∧ (f.call env c).t > f.t then [f.call env c] else []) ++ estimates env (f.call env c) cs

/-- `ms` are messages published for the estimates `fs`: what is recorded is computed from the estimate. -/
def PublishedFor (env : Env n nCam nPose Img Q M) : List (FS n nCam nPose Q) → List (ℝ × (Topic nCam → M)) → Prop :=
  List.Forall₂ fun f p => p.1 = f.t ∧ ∀ k ∈ recorded nCam env.force, p.2 k = env.content f k

/-- One publication and its records. -/
def pubAndRecord (f : Force) (p : ℝ × (Topic nCam → M)) : List (Out nCam M) :=
  .publish p.1 p.2 :: (recorded nCam f).map fun k => .write k (p.2 k)

/-- Every publication but the first, immediately followed by its records. -/
def replayed (f : Force) : List (ℝ × (Topic nCam → M)) → List (Out nCam M)
  | [] => []
  | p :: ps => .publish p.1 p.2 :: ps.flatMap (pubAndRecord f)

/-- What was written to the output bag, in order. -/
def written (l : List (Out nCam M)) : List (Topic nCam × M) :=
  l.filterMap fun o => match o with | .write k m => some (k, m) | _ => none

lemma records_eq (f : Force) (msgs : Topic nCam → M) : records f msgs = (recorded nCam f).map fun k => .write k (msgs k) := by
  unfold records recorded
  have h : ∀ (b : Bool) (k : Topic nCam), (if b then [Out.write k (msgs k)] else []) = (if b then [k] else []).map fun k => Out.write k (msgs k) := by
    intro b k; cases b <;> rfl
  have h2 : (List.finRange (nCam + 1)).flatMap (fun c => if f.extrinsics then [Out.write (.extrinsics c) (msgs (.extrinsics c))] else []) =
      (if f.extrinsics then (List.finRange (nCam + 1)).map (Topic.extrinsics : Fin (nCam + 1) → Topic nCam) else []).map fun k => Out.write k (msgs k) := by
    cases f.extrinsics
    · simp
    · simp only [if_true, List.map_map]
      rw [List.flatMap_def]
      induction List.finRange (nCam + 1) with
      | nil => rfl
      | cons c cs ih => simp only [List.map_cons, List.flatten_cons, ih]; rfl
  rw [h2]
  simp only [List.map_append, h]

lemma dispatch_eq (env : Env n nCam nPose Img Q M) (h01 : env.cam0Topic ≠ env.cam1Topic) (e : Entry Img) : dispatch env e = (eventOf env e).toList := by
  unfold dispatch eventOf
  rcases e with ⟨k, d⟩
  cases d with
  | imu a g t => by_cases h : k = env.imuTopic <;> simp [h]
  | image im t =>
    by_cases h : k = env.cam0Topic
    · subst h; simp [h01]
    · by_cases h' : k = env.cam1Topic
      · subst h'; simp [h]
      · simp [h, h']
  | other => simp

lemma eventOf_view (env : Env n nCam nPose Img Q M) (bag : List (Entry Img)) : (view env bag).filterMap (eventOf env) = bag.filterMap (eventOf env) := by
  unfold view
  rw [List.filterMap_filter]
  congr 1
  funext e
  unfold eventOf
  rcases e with ⟨k, d⟩
  cases d with
  | imu a g t => by_cases h : k = env.imuTopic <;> simp [h]
  | image im t =>
    by_cases h : k = env.cam0Topic
    · simp [h]
    · by_cases h' : k = env.cam1Topic <;> simp [h, h']
  | other => simp

/-! ### One message -/

/-- What the block after the callbacks does when no reset is ever triggered. -/
lemma block_quiet (env : Env n nCam nPose Img Q M) (hr : env.resetTrigger ≤ 0) (s : LSt n nCam nPose Img Q M) :
    Same (s.block env) s ∧
    (s.got = false → s.block env = s) ∧
    (s.got = true → (s.block env).lastSafe = some (max (s.lastSafe.getD s.fs.t) s.fs.t) ∧
      (s.block env).out = s.out ++ if s.fs.t > s.lastSafe.getD s.fs.t then records env.force s.msgs else []) := by
  have hn : ¬ env.resetTrigger > 0 := not_lt.mpr hr
  cases hg : s.got
  · simp only [LSt.block, hg]
    exact ⟨⟨rfl, rfl, rfl, rfl⟩, fun _ => rfl, fun h => by simp at h⟩
  · simp only [LSt.block, hg, if_true, LSt.pull, hn, false_and, if_false, LSt.record]
    by_cases h : s.fs.t > s.lastSafe.getD s.fs.t
    · simp only [h, if_true]
      exact ⟨⟨rfl, rfl, rfl, hg.symm⟩, fun h => by simp at h, fun _ => ⟨by rw [max_eq_right h.le], trivial⟩⟩
    · simp only [h, if_false]
      exact ⟨⟨rfl, rfl, rfl, hg.symm⟩, fun h => by simp at h, fun _ => ⟨by rw [max_eq_left (not_lt.mp h)], by simp⟩⟩

lemma recorded_on (f : Force) (k : Topic nCam) (h : k ∈ recorded nCam f) : f.on k = true := by
  simp only [recorded, List.mem_append] at h
  rcases h with (((((h | h) | h) | h) | h) | h) | h <;> split_ifs at h with hf <;> simp at h
  · subst h; exact hf
  · subst h; exact hf
  · obtain ⟨c, rfl⟩ := h; exact hf
  · subst h; exact hf
  · subst h; simp [Force.on, hf]
  · subst h; simp [Force.on, hf]
  · subst h; exact hf

lemma estimates_append (env : Env n nCam nPose Img Q M) (as bs : List (Call nCam Img)) : ∀ f : FS n nCam nPose Q,
    estimates env f (as ++ bs) = estimates env f as ++ estimates env (as.foldl (FS.call env) f) bs := by
  induction as with
  | nil => intro f; rfl
  | cons c cs ih => intro f; simp only [List.cons_append, estimates, ih, List.foldl_cons, List.append_assoc]

/-- A call that only adds a measurement. -/
def Adds : Call nCam Img → Prop
  | .addImu _ _ | .addImages _ _ | .addPose _ _ | .addVelocity _ _ => True
  | _ => False

/-- A message of the bag restarts the filter, adds a measurement and updates, or does nothing. -/
lemma bag_calls (env : Env n nCam nPose Img Q M) (x : Entry Img) (e : Ev Img) (he : eventOf env x = some e) (s : St nCam Img) :
    (s.init = .initialized → (s.step env.timeOffset e).1.init = .initialized ∧
      ((s.step env.timeOffset e).2 = [] ∨ ∃ c, Adds c ∧ (s.step env.timeOffset e).2 = [c, .update])) ∧
    (s.init ≠ .initialized → (s.step env.timeOffset e).2 = [] ∨ (∃ a t, (s.step env.timeOffset e).2 = [.resetWithAccel a t]) ∨
      ∃ p q t, (s.step env.timeOffset e).2 = [.resetWithPose p q t]) := by
  have himg : ∀ (c : Fin (nCam + 1)) (im : Option Img) (t : ℝ),
      (s.init = .initialized → (s.imgCallback c im t).1.init = .initialized ∧
        ((s.imgCallback c im t).2 = [] ∨ ∃ c', Adds c' ∧ (s.imgCallback c im t).2 = [c', .update])) ∧
      (s.init ≠ .initialized → (s.imgCallback c im t).2 = []) := by
    intro c im t
    cases im with
    | none => exact ⟨fun h => ⟨h, Or.inl rfl⟩, fun _ => rfl⟩
    | some im =>
      simp only [St.imgCallback]
      constructor
      · intro h
        have hs : (s.store c im t).init = .initialized := by
          unfold St.store
          split_ifs <;> exact h
        simp only [h, if_true]
        split_ifs
        · exact ⟨hs, Or.inr ⟨.addImages _ t, trivial, rfl⟩⟩
        · exact ⟨hs, Or.inl rfl⟩
      · intro h
        simp only [h, if_false]
  rcases x with ⟨k, d⟩
  cases d with
  | imu a g t =>
    simp only [eventOf] at he
    split_ifs at he
    cases he
    simp only [St.step, St.imuCallback]
    constructor
    · intro h
      rw [h]
      exact ⟨h, Or.inr ⟨.addImu _ t, trivial, rfl⟩⟩
    · intro h
      cases hi : s.init with
      | initialized => exact absurd hi h
      | waitPose => exact Or.inr (Or.inr ⟨_, _, _, rfl⟩)
      | waitAccel => exact Or.inr (Or.inl ⟨_, _, rfl⟩)
  | image im t =>
    simp only [eventOf] at he
    split_ifs at he <;> cases he
    · simp only [St.step, Bool.false_eq_true, if_false]
      exact ⟨(himg 0 im t).1, fun h => Or.inl ((himg 0 im t).2 h)⟩
    · simp only [St.step, if_true]
      split_ifs with h1
      · exact ⟨(himg _ im t).1, fun h => Or.inl ((himg _ im t).2 h)⟩
      · exact ⟨fun h => ⟨h, Or.inl rfl⟩, fun _ => Or.inl rfl⟩
  | other => simp [eventOf] at he

lemma adds_call (env : Env n nCam nPose Img Q M) (c : Call nCam Img) (h : Adds c) (s : LSt n nCam nPose Img Q M) :
    s.call env c = { s with fs := s.fs.call env c } ∧ (s.fs.call env c).t = s.fs.t ∧ c ≠ .update := by
  cases c <;> first | exact ⟨rfl, rfl, by simp⟩ | exact h.elim

/-- One message: nothing is published, or the estimate moved forward and is published. -/
lemma bag_event (env : Env n nCam nPose Img Q M) (law : Lawful env) (x : Entry Img) (e : Ev Img) (he : eventOf env x = some e)
    (s : LSt n nCam nPose Img Q M) :
    ((s.event env e).out = s.out ∧ (s.event env e).got = s.got ∧ (s.event env e).msgs = s.msgs ∧
      estimates env s.fs (s.node.step env.timeOffset e).2 = [] ∧
      (s.node.init = .initialized → (s.event env e).node.init = .initialized ∧ (s.event env e).fs.t = s.fs.t)) ∨
    (s.node.init = .initialized ∧ (s.event env e).node.init = .initialized ∧ (s.event env e).fs.t > s.fs.t ∧ (s.event env e).got = true ∧
      (s.event env e).out = s.out ++ [.publish (s.event env e).fs.t (s.event env e).msgs] ∧
      (∀ k ∈ recorded nCam env.force, (s.event env e).msgs k = env.content (s.event env e).fs k) ∧
      estimates env s.fs (s.node.step env.timeOffset e).2 = [(s.event env e).fs]) := by
  obtain ⟨h1, h2⟩ := bag_calls env x e he s.node
  by_cases hi : s.node.init = .initialized
  · obtain ⟨g1, hc | ⟨c, ha, hc⟩⟩ := h1 hi
    · left
      have hev : s.event env e = { s with node := (s.node.step env.timeOffset e).1 } := by simp only [LSt.event, hc, List.foldl_nil]
      rw [hev, hc]
      exact ⟨rfl, rfl, rfl, rfl, fun _ => ⟨g1, rfl⟩⟩
    · obtain ⟨e1, e2, e3⟩ := adds_call env c ha { s with node := (s.node.step env.timeOffset e).1 }
      simp only [] at e2
      have hev : s.event env e = LSt.call env { s with node := (s.node.step env.timeOffset e).1, fs := s.fs.call env c } .update := by
        simp only [LSt.event, hc, List.foldl_cons, List.foldl_nil, e1]
      have hest : estimates env s.fs (s.node.step env.timeOffset e).2 =
          if (env.updateSafe (s.fs.call env c)).t > s.fs.t then [env.updateSafe (s.fs.call env c)] else [] := by
        have hu : (s.fs.call env c).call env .update = env.updateSafe (s.fs.call env c) := rfl
        simp only [hc, estimates, e3, false_and, if_false, hu, e2]
        simp
      rw [hest, hev]
      have hu : (s.fs.call env c).call env .update = env.updateSafe (s.fs.call env c) := rfl
      simp only [LSt.call, hu, e2]
      by_cases ht : (env.updateSafe (s.fs.call env c)).t > s.fs.t
      · right
        simp only [ht, if_true]
        refine ⟨hi, g1, trivial, trivial, trivial, ?_, trivial⟩
        intro k hk
        rw [if_pos (recorded_on env.force k hk)]
      · left
        simp only [ht, if_false]
        refine ⟨trivial, trivial, trivial, trivial, fun _ => ⟨g1, ?_⟩⟩
        exact le_antisymm (not_lt.mp ht) (by have := law.time (s.fs.call env c); rwa [e2] at this)
  · left
    have : (s.event env e).out = s.out ∧ (s.event env e).got = s.got ∧ (s.event env e).msgs = s.msgs ∧
        estimates env s.fs (s.node.step env.timeOffset e).2 = [] := by
      rcases h2 hi with hc | ⟨a, t, hc⟩ | ⟨p, q, t, hc⟩
      · have hev : s.event env e = { s with node := (s.node.step env.timeOffset e).1 } := by simp only [LSt.event, hc, List.foldl_nil]
        rw [hev, hc]
        exact ⟨rfl, rfl, rfl, rfl⟩
      · simp only [LSt.event, hc, List.foldl_nil, List.foldl_cons, LSt.call, estimates]
        simp
      · simp only [LSt.event, hc, List.foldl_nil, List.foldl_cons, LSt.call, estimates]
        simp
    exact ⟨this.1, this.2.1, this.2.2.1, this.2.2.2, fun h => absurd h hi⟩

lemma loop_nil (env : Env n nCam nPose Img Q M) (s : LSt n nCam nPose Img Q M) (bag : List (Entry Img)) :
    loop env s bag (fun _ => []) = (view env bag).foldl (fun s e => LSt.step env s (e, [])) s := by
  unfold loop
  rw [List.foldl_map]
  generalize view env bag = l
  have : ∀ (k : ℕ) (s : LSt n nCam nPose Img Q M), (l.zipIdx k).foldl (fun s x => LSt.step env s (x.1, [])) s = l.foldl (fun s e => LSt.step env s (e, [])) s := by
    induction l with
    | nil => intro k s; rfl
    | cons e es ih => intro k s; simp only [List.zipIdx_cons, List.foldl_cons, ih]
  exact this 0 s

lemma step_nil (env : Env n nCam nPose Img Q M) (h01 : env.cam0Topic ≠ env.cam1Topic) (s : LSt n nCam nPose Img Q M) (x : Entry Img) :
    LSt.step env s (x, []) = (((eventOf env x).toList).foldl (LSt.event env) s).block env := by
  simp only [LSt.step, dispatch_eq env h01, List.append_nil]

/-- The loader's bookkeeping: nothing published yet, or every publication but the first recorded. -/
def Inv (env : Env n nCam nPose Img Q M) (s : LSt n nCam nPose Img Q M) (ps : List (ℝ × (Topic nCam → M))) : Prop :=
  (s.got = false ∧ s.out = [] ∧ ps = [] ∧ s.lastSafe = none) ∨
  (s.node.init = .initialized ∧ s.got = true ∧ s.lastSafe = some s.fs.t ∧ s.out = replayed env.force ps ∧ ps ≠ [])

lemma replayed_snoc (f : Force) (ps : List (ℝ × (Topic nCam → M))) (h : ps ≠ []) (p : ℝ × (Topic nCam → M)) :
    replayed f (ps ++ [p]) = replayed f ps ++ .publish p.1 p.2 :: records f p.2 := by
  cases ps with
  | nil => exact absurd rfl h
  | cons q qs => simp [replayed, pubAndRecord, records_eq]

lemma step_inv (env : Env n nCam nPose Img Q M) (law : Lawful env) (hr : env.resetTrigger ≤ 0) (h01 : env.cam0Topic ≠ env.cam1Topic)
    (s : LSt n nCam nPose Img Q M) (ps : List (ℝ × (Topic nCam → M))) (h : Inv env s ps) (x : Entry Img) :
    ∃ ps', Inv env (LSt.step env s (x, [])) (ps ++ ps') ∧
      PublishedFor env (estimates env s.fs (St.run env.timeOffset s.node (eventOf env x).toList).2) ps' := by
  rw [step_nil env h01]
  cases he : eventOf env x with
  | none =>
    refine ⟨[], ?_, List.Forall₂.nil⟩
    simp only [Option.toList, List.foldl_nil, List.append_nil]
    obtain ⟨hs, hb0, hb1⟩ := block_quiet env hr s
    rcases h with ⟨hg, h⟩ | ⟨hi, hg, hl, ho, hp⟩
    · rw [hb0 hg]; exact Or.inl ⟨hg, h⟩
    · obtain ⟨b1, b2⟩ := hb1 hg
      right
      refine ⟨by rw [hs.node]; exact hi, hs.got.trans hg, ?_, ?_, hp⟩
      · rw [b1, hs.fs, hl]; simp
      · rw [b2, hl, ho]; simp
  | some e =>
    simp only [Option.toList, List.foldl_cons, List.foldl_nil]
    have hrun : (St.run env.timeOffset s.node [e]).2 = (s.node.step env.timeOffset e).2 := by simp [St.run]
    rw [hrun]
    obtain ⟨hs, hb0, hb1⟩ := block_quiet env hr (s.event env e)
    obtain ⟨_, _, f3, _⟩ := event_frame env s e
    rcases bag_event env law x e he s with ⟨g1, g2, g3, g4, g5⟩ | ⟨g1, g2, g3, g4, g5, g6, g7⟩
    · refine ⟨[], ?_, by rw [g4]; exact List.Forall₂.nil⟩
      rw [List.append_nil]
      rcases h with ⟨hg, ho, hp, hl⟩ | ⟨hi, hg, hl, ho, hp⟩
      · rw [hb0 (g2.trans hg)]
        exact Or.inl ⟨g2.trans hg, g1.trans ho, hp, f3.trans hl⟩
      · obtain ⟨b1, b2⟩ := hb1 (g2.trans hg)
        obtain ⟨c1, c2⟩ := g5 hi
        right
        refine ⟨by rw [hs.node]; exact c1, hs.got.trans (g2.trans hg), ?_, ?_, hp⟩
        · rw [b1, hs.fs, f3, hl, c2]; simp
        · rw [b2, f3, hl, g1, ho, c2]; simp
    · obtain ⟨b1, b2⟩ := hb1 g4
      refine ⟨[((s.event env e).fs.t, (s.event env e).msgs)], ?_, by rw [g7]; exact List.Forall₂.cons ⟨rfl, g6⟩ List.Forall₂.nil⟩
      right
      refine ⟨by rw [hs.node]; exact g2, hs.got.trans g4, ?_, ?_, by simp⟩
      · rw [b1, hs.fs, f3]
        rcases h with ⟨hg, ho, hp, hl⟩ | ⟨hi, hg, hl, ho, hp⟩
        · rw [hl]; simp
        · rw [hl]; simp [g3.le]
      · rw [b2, f3, g5]
        rcases h with ⟨hg, ho, hp, hl⟩ | ⟨hi, hg, hl, ho, hp⟩
        · rw [hl, ho, hp]; simp [replayed]
        · rw [hl, ho, replayed_snoc env.force ps hp]; simp [g3]

lemma run_append (d : ℝ) (as bs : List (Ev Img)) : ∀ s : St nCam Img,
    (St.run d s (as ++ bs)).1 = (St.run d (St.run d s as).1 bs).1 ∧ (St.run d s (as ++ bs)).2 = (St.run d s as).2 ++ (St.run d (St.run d s as).1 bs).2 := by
  induction as with
  | nil => intro s; exact ⟨rfl, rfl⟩
  | cons e es ih =>
    intro s
    simp only [List.cons_append, St.run]
    exact ⟨(ih _).1, by rw [(ih _).2, List.append_assoc]⟩

lemma step_frame (env : Env n nCam nPose Img Q M) (hr : env.resetTrigger ≤ 0) (h01 : env.cam0Topic ≠ env.cam1Topic) (s : LSt n nCam nPose Img Q M)
    (x : Entry Img) :
    (LSt.step env s (x, [])).node = (St.run env.timeOffset s.node (eventOf env x).toList).1 ∧
    (LSt.step env s (x, [])).fs = (St.run env.timeOffset s.node (eventOf env x).toList).2.foldl (FS.call env) s.fs := by
  rw [step_nil env h01]
  have hs := (block_quiet env hr (((eventOf env x).toList).foldl (LSt.event env) s)).1
  obtain ⟨h1, h2, _, _⟩ := events_frame env (eventOf env x).toList s
  exact ⟨hs.node.trans h1, hs.fs.trans h2⟩

lemma steps_frame (env : Env n nCam nPose Img Q M) (hr : env.resetTrigger ≤ 0) (h01 : env.cam0Topic ≠ env.cam1Topic) (l : List (Entry Img)) :
    ∀ s : LSt n nCam nPose Img Q M,
    (l.foldl (fun s e => LSt.step env s (e, [])) s).node = (St.run env.timeOffset s.node (l.filterMap (eventOf env))).1 ∧
    (l.foldl (fun s e => LSt.step env s (e, [])) s).fs = (St.run env.timeOffset s.node (l.filterMap (eventOf env))).2.foldl (FS.call env) s.fs := by
  induction l with
  | nil => intro s; exact ⟨rfl, rfl⟩
  | cons x xs ih =>
    intro s
    obtain ⟨h1, h2⟩ := ih (LSt.step env s (x, []))
    obtain ⟨g1, g2⟩ := step_frame env hr h01 s x
    have hcons : (x :: xs).filterMap (eventOf env) = (eventOf env x).toList ++ xs.filterMap (eventOf env) := by
      cases h : eventOf env x <;> simp [h]
    obtain ⟨r1, r2⟩ := run_append env.timeOffset (eventOf env x).toList (xs.filterMap (eventOf env)) s.node
    rw [hcons, r1, r2, List.foldl_append, List.foldl_cons]
    rw [g1] at h1 h2
    rw [g2] at h2
    exact ⟨h1, h2⟩

lemma steps_inv (env : Env n nCam nPose Img Q M) (law : Lawful env) (hr : env.resetTrigger ≤ 0) (h01 : env.cam0Topic ≠ env.cam1Topic)
    (l : List (Entry Img)) : ∀ (s : LSt n nCam nPose Img Q M) (ps : List (ℝ × (Topic nCam → M))), Inv env s ps →
    ∃ ps', Inv env (l.foldl (fun s e => LSt.step env s (e, [])) s) (ps ++ ps') ∧
      PublishedFor env (estimates env s.fs (St.run env.timeOffset s.node (l.filterMap (eventOf env))).2) ps' := by
  induction l with
  | nil => intro s ps h; exact ⟨[], by simpa using h, List.Forall₂.nil⟩
  | cons x xs ih =>
    intro s ps h
    obtain ⟨p1, i1, f1⟩ := step_inv env law hr h01 s ps h x
    obtain ⟨p2, i2, f2⟩ := ih _ _ i1
    obtain ⟨g1, g2⟩ := step_frame env hr h01 s x
    refine ⟨p1 ++ p2, by rw [← List.append_assoc]; exact i2, ?_⟩
    have hcons : (x :: xs).filterMap (eventOf env) = (eventOf env x).toList ++ xs.filterMap (eventOf env) := by
      cases h : eventOf env x <;> simp [h]
    rw [hcons, (run_append env.timeOffset _ _ s.node).2, estimates_append]
    rw [g1, g2] at f2
    exact List.rel_append f1 f2

/-- The last publication of a list of outputs. -/
def LastPublished (l : List (Out nCam M)) (ms : Topic nCam → M) : Prop :=
  ∃ a t b, l = a ++ .publish t ms :: b ∧ ∀ o ∈ b, ∀ t' m', o ≠ .publish t' m'

/-- Everything written is a recorded message of the last publication. -/
def WritesGood (f : Force) (l : List (Out nCam M)) : Prop :=
  ∀ pre k m post, l = pre ++ .write k m :: post → k ∈ recorded nCam f ∧ ∃ ms, LastPublished pre ms ∧ m = ms k

/-- The times of the reset requests. -/
def requests (l : List (Out nCam M)) : List ℝ := l.filterMap fun o => match o with | .request t => some t | _ => none

lemma good_nil (f : Force) : WritesGood f ([] : List (Out nCam M)) := by
  intro pre k m post h
  simp at h

lemma good_snoc (f : Force) (l : List (Out nCam M)) (h : WritesGood f l) (o : Out nCam M)
    (ho : ∀ k m, o = .write k m → k ∈ recorded nCam f ∧ ∃ ms, LastPublished l ms ∧ m = ms k) : WritesGood f (l ++ [o]) := by
  intro pre k m post he
  rcases List.eq_nil_or_concat post with rfl | ⟨p, q, rfl⟩
  · obtain ⟨h1, h2⟩ := List.append_inj' he (by simp)
    subst h1
    exact ho k m (by simpa using h2)
  · rw [List.concat_eq_append, ← List.cons_append, ← List.append_assoc] at he
    obtain ⟨h1, _⟩ := List.append_inj' he (by simp)
    exact h pre k m p h1

lemma last_snoc (l : List (Out nCam M)) (ms : Topic nCam → M) (h : LastPublished l ms) (o : Out nCam M) (ho : ∀ t m, o ≠ .publish t m) :
    LastPublished (l ++ [o]) ms := by
  obtain ⟨a, t, b, rfl, hb⟩ := h
  refine ⟨a, t, b ++ [o], by simp, ?_⟩
  intro o' ho' t' m'
  rcases List.mem_append.mp ho' with h | h
  · exact hb o' h t' m'
  · rw [List.mem_singleton.mp h]; exact ho t' m'

/-- The invariant of any execution. -/
structure Sane (env : Env n nCam nPose Img Q M) (s : LSt n nCam nPose Img Q M) : Prop where
  good : WritesGood env.force s.out
  last : s.got = true → LastPublished s.out s.msgs
  pair : (requests s.out).Pairwise fun a b => b - a > env.resetTrigger
  le : ∀ r ∈ requests s.out, ∃ t, s.trigger = some t ∧ r ≤ t
  off : env.resetTrigger ≤ 0 → requests s.out = []

lemma sane_call (env : Env n nCam nPose Img Q M) (s : LSt n nCam nPose Img Q M) (h : Sane env s) (c : Call nCam Img) : Sane env (s.call env c) := by
  cases c
  case update =>
    simp only [LSt.call]
    split_ifs
    · have hq : ∀ t ms, requests (s.out ++ [.publish t ms]) = requests s.out := by intro t ms; simp [requests]
      refine ⟨good_snoc _ _ h.good _ (by intro k m he; simp at he), fun _ => ⟨_, _, [], rfl, by simp⟩, ?_, ?_, ?_⟩
      · simp only [hq]; exact h.pair
      · simp only [hq]; exact h.le
      · simp only [hq]; exact h.off
    · exact ⟨h.good, h.last, h.pair, h.le, h.off⟩
  all_goals exact ⟨h.good, h.last, h.pair, h.le, h.off⟩

lemma sane_events (env : Env n nCam nPose Img Q M) (es : List (Ev Img)) : ∀ s : LSt n nCam nPose Img Q M, Sane env s → Sane env (es.foldl (LSt.event env) s) := by
  have hc : ∀ (cs : List (Call nCam Img)) (s : LSt n nCam nPose Img Q M), Sane env s → Sane env (cs.foldl (LSt.call env) s) := by
    intro cs
    induction cs with
    | nil => intro s h; exact h
    | cons c cs ih => intro s h; exact ih _ (sane_call env s h c)
  induction es with
  | nil => intro s h; exact h
  | cons e es ih =>
    intro s h
    exact ih _ (hc _ _ ⟨h.good, h.last, h.pair, h.le, h.off⟩)

lemma writes_good (f : Force) (ms : Topic nCam → M) (ks : List (Topic nCam)) : ∀ l : List (Out nCam M), (∀ k ∈ ks, k ∈ recorded nCam f) →
    WritesGood f l → LastPublished l ms →
    WritesGood f (l ++ ks.map fun k => .write k (ms k)) ∧ LastPublished (l ++ ks.map fun k => .write k (ms k)) ms ∧
    requests (l ++ ks.map fun k => .write k (ms k)) = requests l := by
  induction ks with
  | nil => intro l _ h1 h2; simpa using ⟨h1, h2⟩
  | cons k ks ih =>
    intro l hk h1 h2
    obtain ⟨a, b, c⟩ := ih (l ++ [.write k (ms k)]) (fun k' hk' => hk k' (List.mem_cons_of_mem _ hk'))
      (good_snoc f l h1 _ (by
        intro k' m' he
        simp only [Out.write.injEq] at he
        obtain ⟨rfl, rfl⟩ := he
        exact ⟨hk _ List.mem_cons_self, ms, h2, rfl⟩)) (last_snoc l ms h2 _ (by simp))
    simp only [List.append_assoc, List.cons_append, List.nil_append] at a b c
    refine ⟨by simpa using a, by simpa using b, ?_⟩
    rw [List.map_cons, c]
    simp [requests]

lemma sane_block (env : Env n nCam nPose Img Q M) (s : LSt n nCam nPose Img Q M) (h : Sane env s) : Sane env (s.block env) := by
  unfold LSt.block
  split_ifs with hg
  swap
  · exact h
  have hrec : Sane env (s.record env).1 := by
    unfold LSt.record
    by_cases ht : s.fs.t > s.lastSafe.getD s.fs.t
    · simp only [ht, if_true]
      obtain ⟨a, b, c⟩ := writes_good env.force s.msgs (recorded nCam env.force) s.out (fun _ h => h) h.good (h.last hg)
      rw [← records_eq] at a b c
      exact ⟨a, fun _ => b, by rw [c]; exact h.pair, by rw [c]; exact h.le, by rw [c]; exact h.off⟩
    · simp only [ht, if_false]
      exact ⟨h.good, h.last, h.pair, h.le, h.off⟩
  generalize s.record env = r at hrec
  obtain ⟨r, last⟩ := r
  simp only [LSt.pull] at hrec ⊢
  split_ifs with hp
  · obtain ⟨hp0, hp1⟩ := hp
    have hq : requests (r.out ++ [.request last]) = requests r.out ++ [last] := by simp [requests]
    refine ⟨good_snoc _ _ hrec.good _ (by intro k m he; simp at he), fun h => last_snoc _ _ (hrec.last h) _ (by simp), ?_, ?_, ?_⟩
    · simp only [hq, List.pairwise_append]
      refine ⟨hrec.pair, by simp, ?_⟩
      intro a ha b hb
      obtain ⟨t, h1, h2⟩ := hrec.le a ha
      rw [h1, Option.getD_some] at hp1
      rw [List.mem_singleton.mp hb]
      linarith
    · simp only [hq]
      intro a ha
      refine ⟨last, rfl, ?_⟩
      rcases List.mem_append.mp ha with ha | ha
      · obtain ⟨t, h1, h2⟩ := hrec.le a ha
        rw [h1, Option.getD_some] at hp1
        linarith
      · rw [List.mem_singleton.mp ha]
    · intro h; linarith
  · refine ⟨hrec.good, hrec.last, hrec.pair, ?_, hrec.off⟩
    intro a ha
    obtain ⟨t, h1, h2⟩ := hrec.le a ha
    exact ⟨t, by simp [h1], h2⟩

lemma sane_loop (env : Env n nCam nPose Img Q M) (bag : List (Entry Img)) (spin : ℕ → List (Ev Img)) (s : LSt n nCam nPose Img Q M)
    (h : Sane env s) : Sane env (loop env s bag spin) := by
  unfold loop
  generalize (view env bag).zipIdx.map (fun x => (x.1, spin x.2)) = l
  induction l generalizing s with
  | nil => exact h
  | cons x xs ih => exact ih _ (sane_block env _ (sane_events env _ _ h))

/-! ### Theorems -/

/-- Without a reset trigger, and with no other callbacks, processing a bag leaves the node and the filter as they are after the node
received the IMU and image messages of the bag live, in order; recording does not influence the estimate. -/
theorem C86_replay (env : Env n nCam nPose Img Q M) (hr : env.resetTrigger ≤ 0) (h01 : env.cam0Topic ≠ env.cam1Topic) (s : LSt n nCam nPose Img Q M)
    (bag : List (Entry Img)) :
    (loop env s bag fun _ => []).node = (St.run env.timeOffset s.node (bag.filterMap (eventOf env))).1 ∧
    (loop env s bag fun _ => []).fs = (St.run env.timeOffset s.node (bag.filterMap (eventOf env))).2.foldl (FS.call env) s.fs ∧
    ∀ force, (loop { env with force := force } s bag fun _ => []).fs = (loop env s bag fun _ => []).fs := by
  have key : ∀ env : Env n nCam nPose Img Q M, env.resetTrigger ≤ 0 → env.cam0Topic ≠ env.cam1Topic →
      (loop env s bag fun _ => []).node = (St.run env.timeOffset s.node (bag.filterMap (eventOf env))).1 ∧
      (loop env s bag fun _ => []).fs = (St.run env.timeOffset s.node (bag.filterMap (eventOf env))).2.foldl (FS.call env) s.fs := by
    intro env hr h01
    rw [loop_nil, ← eventOf_view]
    exact steps_frame env hr h01 (view env bag) s
  refine ⟨(key env hr h01).1, (key env hr h01).2, fun force => ?_⟩
  rw [(key { env with force := force } hr h01).2, (key env hr h01).2]
  rfl

/-- Without a reset trigger, and with no other callbacks, the loader records, in order, the switched-on messages of every estimate
but the first, each right after its publication, and nothing else. -/
theorem C86_records (env : Env n nCam nPose Img Q M) (law : Lawful env) (hr : env.resetTrigger ≤ 0) (h01 : env.cam0Topic ≠ env.cam1Topic)
    (qMW : Quat) (pose : PoseMeas) (fs : FS n nCam nPose Q) (msgs : Topic nCam → M) (bag : List (Entry Img)) :
    let est := estimates env fs (St.run env.timeOffset (St.construct qMW pose) (bag.filterMap (eventOf env))).2
    let out := (loop env (start qMW pose fs msgs) bag fun _ => []).out
    (∃ ps, PublishedFor env est ps ∧ out = replayed env.force ps) ∧
    written out = est.tail.flatMap fun f => (recorded nCam env.force).map fun k => (k, env.content f k) := by
  intro est out
  have h : ∃ ps, PublishedFor env est ps ∧ out = replayed env.force ps := by
    obtain ⟨ps, hi, hp⟩ := steps_inv env law hr h01 (view env bag) (start qMW pose fs msgs) [] (Or.inl ⟨rfl, rfl, rfl, rfl⟩)
    rw [eventOf_view] at hp
    rw [← loop_nil, List.nil_append] at hi
    refine ⟨ps, hp, ?_⟩
    rcases hi with ⟨_, ho, hps, _⟩ | ⟨_, _, _, ho, _⟩
    · rw [hps]; exact ho
    · exact ho
  refine ⟨h, ?_⟩
  obtain ⟨ps, hp, ho⟩ := h
  rw [ho]
  have hw : ∀ (es : List (FS n nCam nPose Q)) (ps : List (ℝ × (Topic nCam → M))), PublishedFor env es ps →
      written (ps.flatMap (pubAndRecord env.force)) = es.flatMap fun f => (recorded nCam env.force).map fun k => (k, env.content f k) := by
    intro es ps h
    induction h with
    | nil => rfl
    | @cons f p es ps hfp _ ih =>
      simp only [List.flatMap_cons, written, List.filterMap_append] at ih ⊢
      rw [ih]
      congr 1
      simp only [pubAndRecord, List.filterMap_cons, List.filterMap_map]
      rw [List.filterMap_eq_map_iff_forall_eq_some.mpr]
      intro k hk
      simp [hfp.2 k hk]
  clear_value est
  cases hp with
  | nil => rfl
  | cons _ h => exact hw _ _ h

/-- In every execution (any reset trigger, any callbacks run in between): what is written to the output bag is one of the recorded
messages of the last publication before. -/
theorem C86_written_published (env : Env n nCam nPose Img Q M) (qMW : Quat) (pose : PoseMeas) (fs : FS n nCam nPose Q) (msgs : Topic nCam → M)
    (bag : List (Entry Img)) (spin : ℕ → List (Ev Img)) (pre : List (Out nCam M)) (k : Topic nCam) (m : M) (post : List (Out nCam M))
    (h : (loop env (start qMW pose fs msgs) bag spin).out = pre ++ .write k m :: post) :
    k ∈ recorded nCam env.force ∧ ∃ ms, LastPublished pre ms ∧ m = ms k :=
  (sane_loop env bag spin _ ⟨good_nil _, fun h => by simp [start] at h, by simp [requests, start], by simp [requests, start],
    by simp [requests, start]⟩).good pre k m post h

/-- In every execution, reset requests of the loader are more than `reset_trigger` of estimated time apart; none is made if the
trigger is not positive. -/
theorem C86_requests (env : Env n nCam nPose Img Q M) (qMW : Quat) (pose : PoseMeas) (fs : FS n nCam nPose Q) (msgs : Topic nCam → M)
    (bag : List (Entry Img)) (spin : ℕ → List (Ev Img)) :
    (requests (loop env (start qMW pose fs msgs) bag spin).out).Pairwise (fun a b => b - a > env.resetTrigger) ∧
    (env.resetTrigger ≤ 0 → requests (loop env (start qMW pose fs msgs) bag spin).out = []) := by
  have h := sane_loop env bag spin (start qMW pose fs msgs) ⟨good_nil _, fun h => by simp [start] at h, by simp [requests, start],
    by simp [requests, start], by simp [requests, start]⟩
  exact ⟨h.pair, h.off⟩

/-- When the trigger fires: the node waits for the next IMU message, the estimate is left alone until then, and the filter then
restarts at the position it had, at the time of that message, with the rest of the initial state except position and attitude; the
attitude is that of any other restart, so the copied attitude is lost. -/
theorem C86_trigger (env : Env n nCam nPose Img Q M) (s : LSt n nCam nPose Img Q M) (hg : s.got = true) (hi : s.node.init = .initialized)
    (l tr : ℝ) (hl : s.lastSafe = some l) (ht : s.trigger = some tr) (h0 : env.resetTrigger > 0) (h : max l s.fs.t - tr > env.resetTrigger)
    (a g : V3) (t : ℝ) :
    (s.block env).node.init = .waitAccel ∧ (s.block env).fs.safe = s.fs.safe ∧ (s.block env).fs.t = s.fs.t ∧
    ((s.block env).event env (.imu a g t)).node.init = .initialized ∧
    ((s.block env).event env (.imu a g t)).fs.t = t ∧
    ((s.block env).event env (.imu a g t)).fs.safe = { s.fs.init with
      pos := s.fs.safe.pos
      att := if a.norm > 1e-6 then env.setFromVectors a ⟨0, 0, 1⟩ else Quat.one } := by
  have hr : (s.record env).2 = max l s.fs.t ∧ (s.record env).1.node = s.node ∧ (s.record env).1.fs = s.fs ∧ (s.record env).1.trigger = some tr := by
    unfold LSt.record
    simp only [hl, Option.getD_some]
    split_ifs with h
    · exact ⟨(max_eq_right h.le).symm, rfl, rfl, ht⟩
    · exact ⟨(max_eq_left (not_lt.mp h)).symm, rfl, rfl, ht⟩
  obtain ⟨r1, r2, r3, r4⟩ := hr
  have hb : (s.block env).node = s.node.requestReset ∧
      (s.block env).fs = { s.fs with init := { s.fs.init with pos := s.fs.safe.pos, att := s.fs.safe.att } } := by
    simp only [LSt.block, hg, if_true, LSt.pull, r1, r2, r3, r4, Option.getD_some, h0, h, and_self]
  obtain ⟨b1, b2⟩ := hb
  have hn : (s.block env).node.init = .waitAccel := by rw [b1]; simp [St.requestReset, hi]
  obtain ⟨e1, e2, _, _⟩ := event_frame env (s.block env) (.imu a g t)
  have hst : (s.block env).node.step env.timeOffset (.imu a g t) = ({ (s.block env).node with init := .initialized }, [.resetWithAccel a t]) := by
    simp [St.step, St.imuCallback, hn]
  rw [hst] at e1 e2
  refine ⟨hn, by rw [b2], by rw [b2], by rw [e1], by rw [e2]; rfl, ?_⟩
  rw [e2, b2]
  simp only [List.foldl_cons, List.foldl_nil, FS.call, initAfter, State.initWithAccelerometer]
  split_ifs <;> rfl

/-- Finding: the poses with covariance are never recorded, also if `record_pose_with_covariance_stamped` is set. -/
theorem C86_finding_pose_not_recorded (env : Env n nCam nPose Img Q M) (qMW : Quat) (pose : PoseMeas) (fs : FS n nCam nPose Q)
    (msgs : Topic nCam → M) (bag : List (Entry Img)) (spin : ℕ → List (Ev Img)) (m : M) :
    Out.write .poseWithCovariance m ∉ (loop env (start qMW pose fs msgs) bag spin).out := by
  intro h
  obtain ⟨pre, post, h⟩ := List.append_of_mem h
  have := (C86_written_published env qMW pose fs msgs bag spin pre _ m post h).1
  simp only [recorded, List.mem_append] at this
  rcases this with (((((h | h) | h) | h) | h) | h) | h <;> split_ifs at h <;> simp at h

/-- Finding: after a reset, the IMU message that restarts the filter makes the loader write the messages of the last publication a
second time if its stamp is later than the time last recorded, although nothing is published. -/
theorem C86_finding_stale_record (env : Env n nCam nPose Img Q M) (hr : env.resetTrigger ≤ 0) (h1 : env.imuTopic ≠ env.cam0Topic)
    (h2 : env.imuTopic ≠ env.cam1Topic) (s : LSt n nCam nPose Img Q M) (hg : s.got = true)
    (hi : s.node.init = .waitAccel) (l : ℝ) (hl : s.lastSafe = some l) (a g : V3) (t : ℝ) (ht : t > l) :
    (LSt.step env s (⟨env.imuTopic, .imu a g t⟩, [])).out = s.out ++ (recorded nCam env.force).map fun k => .write k (s.msgs k) := by
  have hd : dispatch env ⟨env.imuTopic, .imu a g t⟩ = [.imu a g t] := by simp [dispatch, h1, h2]
  have hst : s.node.step env.timeOffset (.imu a g t) = ({ s.node with init := .initialized }, [.resetWithAccel a t]) := by
    simp [St.step, St.imuCallback, hi]
  have he : (s.event env (.imu a g t)).out = s.out ∧ (s.event env (.imu a g t)).msgs = s.msgs ∧ (s.event env (.imu a g t)).got = s.got ∧
      (s.event env (.imu a g t)).lastSafe = s.lastSafe ∧ (s.event env (.imu a g t)).fs.t = t := by
    simp only [LSt.event, hst]
    exact ⟨rfl, rfl, rfl, rfl, rfl⟩
  obtain ⟨e1, e2, e3, e4, e5⟩ := he
  simp only [LSt.step, hd, List.append_nil, List.foldl_cons, List.foldl_nil]
  rw [((block_quiet env hr _).2.2 (e3.trans hg)).2, e1, e2, e4, e5, hl, Option.getD_some, if_pos ht, records_eq]

/-! ### Non-trivial cases -/

section Examples

/-- A filter that is always up to date with the last IMU measurement; odometry is recorded, the pose with covariance requested. -/
noncomputable def env₀ (rt : ℝ) : Env 0 0 0 Unit ℝ ℝ where
  setFromVectors := fun _ _ => Quat.one
  add := fun c q => match c with | .addImu _ t => t | _ => q
  clear := fun t _ => t
  updateSafe := fun f => { f with t := max f.t f.q }
  content := fun f _ => f.t
  timeOffset := 0
  force := ⟨true, true, false, false, false, false, false, false⟩
  resetTrigger := rt
  imuTopic := "/imu0"
  cam0Topic := "/cam0/image_raw"
  cam1Topic := "/cam1/image_raw"

/-- An IMU message of the bag. -/
def imuAt (t : ℝ) : Entry Unit := ⟨"/imu0", .imu ⟨0, 0, 9⟩ 0 t⟩

/-- A state of the filter; the estimate is not used by `env₀`. -/
def fs₀ (z : State 0 1 0) : FS 0 0 0 ℝ := { init := z, safe := z, t := 0, q := 0 }

lemma lawful₀ (rt : ℝ) : Lawful (env₀ rt) := ⟨fun _ => le_max_left _ _, fun _ => rfl⟩

/-- Four IMU messages: the first starts the filter, the others are published. -/
def bag₀ : List (Entry Unit) := [imuAt 0, imuAt 1, imuAt 2, imuAt 3]

lemma calls₀ (rt : ℝ) (qMW : Quat) (pose : PoseMeas) :
    (St.run (nCam := 0) 0 (St.construct qMW pose) (bag₀.filterMap (eventOf (env₀ rt)))).2 =
      [.resetWithAccel ⟨0, 0, 9⟩ 0, .addImu ⟨⟨0, 0, 9⟩, 0⟩ 1, .update, .addImu ⟨⟨0, 0, 9⟩, 0⟩ 2, .update, .addImu ⟨⟨0, 0, 9⟩, 0⟩ 3, .update] := by
  simp [bag₀, eventOf, env₀, imuAt, St.run, St.step, St.imuCallback, St.construct]

/-- Finding: the first published estimate is not recorded.  Three estimates are published and two recorded. -/
theorem C86_finding_first_not_recorded (z : State 0 1 0) (qMW : Quat) (pose : PoseMeas) (msgs : Topic 0 → ℝ) :
    let out := (loop (env₀ 0) (start qMW pose (fs₀ z) msgs) bag₀ fun _ => []).out
    written out = [(.odometry, 2), (.odometry, 3)] ∧ ∃ ms, Out.publish 1 ms ∈ out ∧ ms .odometry = 1 := by
  have h := C86_records (env₀ 0) (lawful₀ 0) le_rfl (by simp [env₀]) qMW pose (fs₀ z) msgs bag₀
  simp only at h
  have hc := calls₀ 0 qMW pose
  rw [show (env₀ 0).timeOffset = 0 from rfl, hc] at h
  have he : estimates (env₀ 0) (fs₀ z) [.resetWithAccel ⟨0, 0, 9⟩ 0, .addImu ⟨⟨0, 0, 9⟩, 0⟩ 1, .update, .addImu ⟨⟨0, 0, 9⟩, 0⟩ 2, .update, .addImu ⟨⟨0, 0, 9⟩, 0⟩ 3, .update] =
      [1, 2, 3].map fun t => ({ (fs₀ z).call (env₀ 0) (.resetWithAccel ⟨0, 0, 9⟩ 0) with t := t, q := t } : FS 0 0 0 ℝ) := by
    simp [estimates, env₀, FS.call, fs₀]
    norm_num
  rw [he] at h
  obtain ⟨⟨ps, hp, ho⟩, hw⟩ := h
  have hr : recorded 0 (env₀ 0).force = [.odometry] := rfl
  refine ⟨?_, ?_⟩
  · rw [hw, hr]; rfl
  · rw [ho]
    cases hp with
    | @cons _ p _ ps h _ =>
      refine ⟨p.2, ?_, h.2 .odometry (by rw [hr]; simp)⟩
      have : p.1 = 1 := h.1
      rw [← this]
      exact List.mem_cons_self

/-- `C86_finding_stale_record` is about reachable states: a reset is requested after the last message of `bag₀`. -/
example (z : State 0 1 0) (qMW : Quat) (pose : PoseMeas) (msgs : Topic 0 → ℝ) :
    let s := loop (env₀ 0) (start qMW pose (fs₀ z) msgs) bag₀ fun k => if k = 3 then [.reset] else []
    s.got = true ∧ s.node.init = .waitAccel ∧ s.lastSafe = some 3 ∧ s.msgs .odometry = 3 := by
  simp [loop, view, bag₀, imuAt, env₀, LSt.step, dispatch, LSt.event, St.step, St.imuCallback, start, St.construct, LSt.call, FS.call, LSt.block,
    LSt.record, LSt.pull, fs₀, St.requestReset, Force.on]
  norm_num

/-- The trigger fires (`C86_trigger`, `C86_requests`): with a trigger of 3/2 a reset is requested at time 3. -/
example (z : State 0 1 0) (qMW : Quat) (pose : PoseMeas) (msgs : Topic 0 → ℝ) :
    let s := (loop (env₀ (3 / 2)) (start qMW pose (fs₀ z) msgs) [imuAt 0, imuAt 1, imuAt 2] fun _ => []).event (env₀ (3 / 2)) (.imu ⟨0, 0, 9⟩ 0 3)
    s.got = true ∧ s.node.init = .initialized ∧ s.lastSafe = some 2 ∧ s.trigger = some 1 ∧ max 2 s.fs.t - 1 > (env₀ (3 / 2)).resetTrigger ∧
    requests (s.block (env₀ (3 / 2))).out = [3] := by
  norm_num [loop, view, imuAt, env₀, LSt.step, dispatch, LSt.event, St.step, St.imuCallback, start, St.construct, LSt.call, FS.call, LSt.block,
    LSt.record, LSt.pull, fs₀, Force.on, requests, records]
  rfl

/-- `C86_replay` and `C86_records` with recording switched on and messages of other topics and types in the bag. -/
example (z : State 0 1 0) (qMW : Quat) (pose : PoseMeas) (msgs : Topic 0 → ℝ) :
    written (loop (env₀ 0) (start qMW pose (fs₀ z) msgs) (⟨"/imu0", .other⟩ :: ⟨"/tf", .other⟩ :: bag₀) fun _ => []).out =
      [(.odometry, 2), (.odometry, 3)] := by
  rw [(C86_records (env₀ 0) (lawful₀ 0) le_rfl (by simp [env₀]) qMW pose (fs₀ z) msgs _).2]
  have := (C86_finding_first_not_recorded z qMW pose msgs).1
  rw [(C86_records (env₀ 0) (lawful₀ 0) le_rfl (by simp [env₀]) qMW pose (fs₀ z) msgs _).2] at this
  exact this

end Examples

end Rovio.BagLoader
