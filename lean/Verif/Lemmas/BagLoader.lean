import Verif.Model.BagLoader
import Mathlib.Tactic

namespace Rovio.BagLoader

open Node

variable {n nCam nPose : ℕ} {Img Q M : Type}

/-- Two program states agree up to what has been put out and the loader's own variables. -/
structure Same (a b : LSt n nCam nPose Img Q M) : Prop where
  node : a.node = b.node
  fs : a.fs = b.fs
  msgs : a.msgs = b.msgs
  got : a.got = b.got

/-- Only publications. -/
def Pubs (l : List (Out nCam M)) : Prop := ∀ o ∈ l, ∃ t m, o = .publish t m

lemma call_frame (env : Env n nCam nPose Img Q M) (s : LSt n nCam nPose Img Q M) (c : Call nCam Img) :
    (s.call env c).node = s.node ∧ (s.call env c).fs = s.fs.call env c ∧ (s.call env c).lastSafe = s.lastSafe ∧ (s.call env c).trigger = s.trigger := by
  cases c
  case update =>
    simp only [LSt.call]
    split_ifs <;> exact ⟨rfl, rfl, rfl, rfl⟩
  all_goals exact ⟨rfl, rfl, rfl, rfl⟩

lemma call_congr (env : Env n nCam nPose Img Q M) {a b : LSt n nCam nPose Img Q M} (h : Same a b) (c : Call nCam Img) :
    Same (a.call env c) (b.call env c) ∧ ∃ new, Pubs new ∧ (a.call env c).out = a.out ++ new ∧ (b.call env c).out = b.out ++ new := by
  obtain ⟨h1, h2, h3, h4⟩ := h
  cases c
  case update =>
    simp only [LSt.call, h2, h3]
    split_ifs
    · exact ⟨⟨h1, rfl, rfl, rfl⟩, _, by intro o ho; simp at ho; exact ⟨_, _, ho⟩, rfl, rfl⟩
    · exact ⟨⟨h1, rfl, rfl, h4⟩, [], by intro o ho; simp at ho, by simp, by simp⟩
  all_goals
    refine ⟨⟨h1, ?_, h3, h4⟩, [], by intro o ho; simp at ho, by simp [LSt.call], by simp [LSt.call]⟩
    simp only [LSt.call, h2]

lemma calls_frame (env : Env n nCam nPose Img Q M) (cs : List (Call nCam Img)) : ∀ s : LSt n nCam nPose Img Q M,
    (cs.foldl (LSt.call env) s).node = s.node ∧ (cs.foldl (LSt.call env) s).fs = cs.foldl (FS.call env) s.fs ∧
    (cs.foldl (LSt.call env) s).lastSafe = s.lastSafe ∧ (cs.foldl (LSt.call env) s).trigger = s.trigger := by
  induction cs with
  | nil => intro s; exact ⟨rfl, rfl, rfl, rfl⟩
  | cons c cs ih =>
    intro s
    obtain ⟨h1, h2, h3, h4⟩ := ih (s.call env c)
    obtain ⟨g1, g2, g3, g4⟩ := call_frame env s c
    simp only [List.foldl_cons]
    exact ⟨h1.trans g1, by rw [h2, g2], h3.trans g3, h4.trans g4⟩

lemma calls_congr (env : Env n nCam nPose Img Q M) (cs : List (Call nCam Img)) : ∀ {a b : LSt n nCam nPose Img Q M}, Same a b →
    Same (cs.foldl (LSt.call env) a) (cs.foldl (LSt.call env) b) ∧
    ∃ new, Pubs new ∧ (cs.foldl (LSt.call env) a).out = a.out ++ new ∧ (cs.foldl (LSt.call env) b).out = b.out ++ new := by
  induction cs with
  | nil => intro a b h; exact ⟨h, [], by intro o ho; simp at ho, by simp, by simp⟩
  | cons c cs ih =>
    intro a b h
    obtain ⟨h1, n1, p1, e1, e2⟩ := call_congr env h c
    obtain ⟨h2, n2, p2, e3, e4⟩ := ih h1
    refine ⟨h2, n1 ++ n2, ?_, ?_, ?_⟩
    · intro o ho
      rcases List.mem_append.mp ho with h | h
      · exact p1 o h
      · exact p2 o h
    · simp only [List.foldl_cons]; rw [e3, e1, List.append_assoc]
    · simp only [List.foldl_cons]; rw [e4, e2, List.append_assoc]

lemma event_frame (env : Env n nCam nPose Img Q M) (s : LSt n nCam nPose Img Q M) (e : Ev Img) :
    (s.event env e).node = (s.node.step env.timeOffset e).1 ∧ (s.event env e).fs = (s.node.step env.timeOffset e).2.foldl (FS.call env) s.fs ∧
    (s.event env e).lastSafe = s.lastSafe ∧ (s.event env e).trigger = s.trigger := by
  unfold LSt.event
  obtain ⟨h1, h2, h3, h4⟩ := calls_frame env (s.node.step env.timeOffset e).2 { s with node := (s.node.step env.timeOffset e).1 }
  exact ⟨h1, h2, h3, h4⟩

lemma event_congr (env : Env n nCam nPose Img Q M) {a b : LSt n nCam nPose Img Q M} (h : Same a b) (e : Ev Img) :
    Same (a.event env e) (b.event env e) ∧ ∃ new, Pubs new ∧ (a.event env e).out = a.out ++ new ∧ (b.event env e).out = b.out ++ new := by
  unfold LSt.event
  rw [h.node]
  exact calls_congr env _ ⟨rfl, h.fs, h.msgs, h.got⟩

lemma events_frame (env : Env n nCam nPose Img Q M) (es : List (Ev Img)) : ∀ s : LSt n nCam nPose Img Q M,
    (es.foldl (LSt.event env) s).node = (St.run env.timeOffset s.node es).1 ∧
    (es.foldl (LSt.event env) s).fs = (St.run env.timeOffset s.node es).2.foldl (FS.call env) s.fs ∧
    (es.foldl (LSt.event env) s).lastSafe = s.lastSafe ∧ (es.foldl (LSt.event env) s).trigger = s.trigger := by
  induction es with
  | nil => intro s; exact ⟨rfl, rfl, rfl, rfl⟩
  | cons e es ih =>
    intro s
    obtain ⟨h1, h2, h3, h4⟩ := ih (s.event env e)
    obtain ⟨g1, g2, g3, g4⟩ := event_frame env s e
    simp only [List.foldl_cons, St.run]
    rw [g1] at h1 h2
    exact ⟨h1, by rw [h2, g2, List.foldl_append], h3.trans g3, h4.trans g4⟩

lemma events_congr (env : Env n nCam nPose Img Q M) (es : List (Ev Img)) : ∀ {a b : LSt n nCam nPose Img Q M}, Same a b →
    Same (es.foldl (LSt.event env) a) (es.foldl (LSt.event env) b) ∧
    ∃ new, Pubs new ∧ (es.foldl (LSt.event env) a).out = a.out ++ new ∧ (es.foldl (LSt.event env) b).out = b.out ++ new := by
  induction es with
  | nil => intro a b h; exact ⟨h, [], by intro o ho; simp at ho, by simp, by simp⟩
  | cons c cs ih =>
    intro a b h
    obtain ⟨h1, n1, p1, e1, e2⟩ := event_congr env h c
    obtain ⟨h2, n2, p2, e3, e4⟩ := ih h1
    refine ⟨h2, n1 ++ n2, ?_, ?_, ?_⟩
    · intro o ho
      rcases List.mem_append.mp ho with h | h
      · exact p1 o h
      · exact p2 o h
    · simp only [List.foldl_cons]; rw [e3, e1, List.append_assoc]
    · simp only [List.foldl_cons]; rw [e4, e2, List.append_assoc]

/-- Everything published is remembered: if anything was published, the prepared messages are those of some publication. -/
def Remembers (s : LSt n nCam nPose Img Q M) : Prop := s.got = true → ∃ t, Out.publish t s.msgs ∈ s.out

lemma call_remembers (env : Env n nCam nPose Img Q M) {s : LSt n nCam nPose Img Q M} (h : Remembers s) (c : Call nCam Img) : Remembers (s.call env c) := by
  cases c
  case update =>
    simp only [LSt.call]
    split_ifs
    · exact fun _ => ⟨_, List.mem_append_right _ (List.mem_singleton.mpr rfl)⟩
    · exact h
  all_goals exact h

lemma event_remembers (env : Env n nCam nPose Img Q M) {s : LSt n nCam nPose Img Q M} (h : Remembers s) (e : Ev Img) : Remembers (s.event env e) := by
  unfold LSt.event
  have : ∀ (cs : List (Call nCam Img)) (s : LSt n nCam nPose Img Q M), Remembers s → Remembers (cs.foldl (LSt.call env) s) := by
    intro cs
    induction cs with
    | nil => intro s h; exact h
    | cons c cs ih => intro s h; exact ih _ (call_remembers env h c)
  exact this _ _ h

lemma events_remembers (env : Env n nCam nPose Img Q M) (es : List (Ev Img)) : ∀ {s : LSt n nCam nPose Img Q M}, Remembers s → Remembers (es.foldl (LSt.event env) s) := by
  induction es with
  | nil => intro s h; exact h
  | cons e es ih => intro s h; exact ih (event_remembers env h e)

end Rovio.BagLoader
