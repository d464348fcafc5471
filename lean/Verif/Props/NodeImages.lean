import Verif.Props.Node

/-! # C55: image sets handed to the filter -/

namespace Rovio

namespace Node

variable {nCam : ℕ} {Img : Type}

open St

/-- Specification: an image `im` of camera `c` (camera 0 on topic cam0, camera 1 on topic cam1) with stamp `t` was received. -/
def Received (es : List (Ev Img)) (c : Fin (nCam + 1)) (im : Img) (t : ℝ) : Prop :=
  (c.val = 0 ∧ Ev.image false (some im) t ∈ es) ∨ (c.val = 1 ∧ Ev.image true (some im) t ∈ es)

/-- Specification: the payloads of the images received. -/
def payloads (es : List (Ev Img)) : List Img := es.filterMap fun e => match e with
  | .image _ im _ => im
  | _ => none

/-- Specification: the payloads handed to the filter, set by set. -/
def delivered (cs : List (Call nCam Img)) : List Img := cs.flatMap fun c => match c with
  | .addImages imgs _ => (List.finRange (nCam + 1)).filterMap imgs
  | _ => []

lemma payloads_append (es es' : List (Ev Img)) : payloads (es ++ es') = payloads es ++ payloads es' := by simp [payloads]

lemma delivered_append (cs cs' : List (Call nCam Img)) : delivered (cs ++ cs') = delivered cs ++ delivered cs' := by simp [delivered]

lemma Received.mono {es : List (Ev Img)} {c : Fin (nCam + 1)} {im : Img} {t : ℝ} (h : Received es c im t) (es' : List (Ev Img)) :
    Received (es ++ es') c im t := by
  rcases h with ⟨h1, h2⟩ | ⟨h1, h2⟩
  · exact Or.inl ⟨h1, List.mem_append_left _ h2⟩
  · exact Or.inr ⟨h1, List.mem_append_left _ h2⟩

lemma Received.payload {es : List (Ev Img)} {c : Fin (nCam + 1)} {im : Img} {t : ℝ} (h : Received es c im t) : im ∈ payloads es := by
  rcases h with ⟨_, h2⟩ | ⟨_, h2⟩
  · exact List.mem_filterMap.mpr ⟨_, h2, rfl⟩
  · exact List.mem_filterMap.mpr ⟨_, h2, rfl⟩

/-- The images stored in the set being collected come from the history and have its stamp. -/
def Collected (es : List (Ev Img)) (s : St nCam Img) : Prop := ∀ c, s.valid c = true → ∃ im, s.pyr c = some im ∧ Received es c im s.imgTime

lemma Collected.mono {es : List (Ev Img)} {s s' : St nCam Img} (h : Collected es s) (es' : List (Ev Img)) (hv : s'.valid = s.valid)
    (hp : s'.pyr = s.pyr) (ht : s'.imgTime = s.imgTime) : Collected (es ++ es') s' := by
  intro c hc
  rw [hv] at hc
  obtain ⟨im, h1, h2⟩ := h c hc
  exact ⟨im, by rw [hp]; exact h1, by rw [ht]; exact h2.mono es'⟩

/-- The events that are not decoded images leave the collected set alone and hand over no images. -/
def Ev.decoded : Ev Img → Bool
  | .image _ (some _) _ => true
  | _ => false

lemma step_other (timeOffset : ℝ) (s : St nCam Img) (e : Ev Img) (he : e.decoded = false) :
    (step timeOffset s e).1.valid = s.valid ∧ (step timeOffset s e).1.pyr = s.pyr ∧ (step timeOffset s e).1.imgTime = s.imgTime ∧
    (∀ x ∈ (step timeOffset s e).2, ∀ imgs t, x ≠ .addImages imgs t) := by
  cases e with
  | imu acc gyr t => simp only [step, imuCallback]; cases hs : s.init <;> simp
  | image cam1 im t =>
    cases im with
    | some im => simp [Ev.decoded] at he
    | none =>
      simp only [step, imgCallback]
      cases cam1
      · simp
      · by_cases hc : 1 < nCam + 1
        · simp only [if_true]; rw [dif_pos hc]; simp
        · simp only [if_true]; rw [dif_neg hc]; simp
  | transform pos q t => simp only [step, transformCallback]; by_cases hs : s.init = .initialized <;> simp [hs]
  | odometry pos q cov t => simp only [step, odometryCallback]; by_cases hs : s.init = .initialized <;> simp [hs]
  | velocity v t => simp only [step]; by_cases hs : s.init = .initialized <;> simp [hs]
  | reset => simp only [step, requestReset]; by_cases hs : s.init = .initialized <;> simp [hs]
  | resetToPose pos q => simp only [step, requestResetToPose]; by_cases hs : s.init = .initialized <;> simp [hs]

lemma delivered_nil {cs : List (Call nCam Img)} (h : ∀ x ∈ cs, ∀ imgs t, x ≠ .addImages imgs t) : delivered cs = [] := by
  simp only [delivered, List.flatMap_eq_nil_iff]
  intro x hx
  cases x with
  | addImages imgs t => exact absurd rfl (h _ hx imgs t)
  | _ => rfl

/-- The invariant behind C55. -/
structure Inv (es : List (Ev Img)) (s : St nCam Img) (cs : List (Call nCam Img)) : Prop where
  coll : Collected es s
  sets : ∀ imgs t, Call.addImages imgs t ∈ cs → ∀ c, ∃ im, imgs c = some im ∧ Received es c im t
  nodup : (payloads es).Nodup → (delivered cs).Nodup ∧ (∀ im ∈ delivered cs, im ∈ payloads es) ∧
    (∀ c im, s.valid c = true → s.pyr c = some im → im ∉ delivered cs) ∧
    (∀ c c' im, s.valid c = true → s.valid c' = true → s.pyr c = some im → s.pyr c' = some im → c = c')

lemma inv_image {es : List (Ev Img)} {s : St nCam Img} {cs : List (Call nCam Img)} (h : Inv es s cs) (c : Fin (nCam + 1)) (e : Ev Img) (im : Img)
    (t : ℝ) (he : e = .image false (some im) t ∧ c.val = 0 ∨ e = .image true (some im) t ∧ c.val = 1) :
    Inv (es ++ [e]) (s.imgCallback c (some im) t).1 (cs ++ (s.imgCallback c (some im) t).2) := by
  have hpay : payloads (es ++ [e]) = payloads es ++ [im] := by
    rw [payloads_append]; rcases he with ⟨rfl, _⟩ | ⟨rfl, _⟩ <;> rfl
  have hrec : Received (es ++ [e]) c im t := by
    rcases he with ⟨rfl, hc⟩ | ⟨rfl, hc⟩
    · exact Or.inl ⟨hc, by simp⟩
    · exact Or.inr ⟨hc, by simp⟩
  have hfresh : (payloads (es ++ [e])).Nodup → (payloads es).Nodup ∧ im ∉ payloads es := by
    rw [hpay]; intro hn
    rw [List.nodup_append] at hn
    exact ⟨hn.1, fun hm => hn.2.2 im hm im (by simp) rfl⟩
  by_cases hi : s.init = .initialized
  · -- the stored set
    have hst : ∀ c', (s.store c im t).valid c' = true → (c' = c ∧ (s.store c im t).pyr c' = some im) ∨
        (c' ≠ c ∧ s.valid c' = true ∧ t = s.imgTime ∧ (s.store c im t).pyr c' = s.pyr c') := by
      intro c' hv
      by_cases hcc : c' = c
      · left; exact ⟨hcc, by subst hcc; unfold store; by_cases ht : t ≠ s.imgTime <;> simp [ht, resetSet]⟩
      · right
        unfold store at hv ⊢
        by_cases ht : t ≠ s.imgTime
        · simp [ht, resetSet, Function.update_of_ne hcc] at hv
        · simp only [ht, if_false, Function.update_of_ne hcc] at hv ⊢
          exact ⟨hcc, hv, not_not.mp ht, trivial⟩
    have htime : (s.store c im t).imgTime = t := by
      unfold store; by_cases ht : t ≠ s.imgTime
      · simp [ht, resetSet]
      · simp only [ht, if_false]; exact (not_not.mp ht).symm
    have hcoll : Collected (es ++ [e]) (s.store c im t) := by
      intro c' hv
      rcases hst c' hv with ⟨rfl, hp⟩ | ⟨_, hv', ht, hp⟩
      · exact ⟨im, hp, by rw [htime]; exact hrec⟩
      · obtain ⟨im', h1, h2⟩ := h.coll c' hv'
        exact ⟨im', hp.trans h1, by rw [htime, ht]; exact h2.mono _⟩
    have hnd : (payloads (es ++ [e])).Nodup →
        (∀ c' im', (s.store c im t).valid c' = true → (s.store c im t).pyr c' = some im' → im' ∉ delivered cs) ∧
        (∀ c₁ c₂ im', (s.store c im t).valid c₁ = true → (s.store c im t).valid c₂ = true → (s.store c im t).pyr c₁ = some im' →
          (s.store c im t).pyr c₂ = some im' → c₁ = c₂) := by
      intro hn
      obtain ⟨hn1, hf⟩ := hfresh hn
      obtain ⟨_, d2, d3, d4⟩ := h.nodup hn1
      have hold : ∀ c' im', s.valid c' = true → s.pyr c' = some im' → im' ≠ im := by
        intro c' im' hv hp heq
        obtain ⟨im'', h1, h2⟩ := h.coll c' hv
        rw [hp] at h1; cases h1
        exact hf (heq ▸ h2.payload)
      constructor
      · intro c' im' hv hp
        rcases hst c' hv with ⟨rfl, hp'⟩ | ⟨_, hv', _, hp'⟩
        · rw [hp'] at hp; cases hp; exact fun hm => hf (d2 _ hm)
        · exact d3 c' im' hv' (hp' ▸ hp)
      · intro c₁ c₂ im' hv₁ hv₂ hp₁ hp₂
        rcases hst c₁ hv₁ with ⟨e₁, q₁⟩ | ⟨_, w₁, _, q₁⟩ <;> rcases hst c₂ hv₂ with ⟨e₂, q₂⟩ | ⟨_, w₂, _, q₂⟩
        · rw [e₁, e₂]
        · rw [hp₁] at q₁; cases q₁; exact absurd rfl (hold c₂ _ w₂ (q₂ ▸ hp₂))
        · rw [hp₂] at q₂; cases q₂; exact absurd rfl (hold c₁ _ w₁ (q₁ ▸ hp₁))
        · exact d4 c₁ c₂ im' w₁ w₂ (q₁ ▸ hp₁) (q₂ ▸ hp₂)
    by_cases ha : (s.store c im t).allValid = true
    · have hval : ∀ c', (s.store c im t).valid c' = true := by simpa [allValid] using ha
      have hcb : s.imgCallback c (some im) t = ((s.store c im t).resetSet t, [.addImages (s.store c im t).pyr t, .update]) := by
        simp [imgCallback, hi, ha]
      rw [hcb]
      refine ⟨fun c' hv => by simp [resetSet] at hv, ?_, ?_⟩
      · intro imgs t' hm c'
        simp only [List.mem_append, List.mem_cons, Call.addImages.injEq, reduceCtorEq, List.not_mem_nil, or_false] at hm
        rcases hm with hm | ⟨rfl, rfl⟩
        · obtain ⟨im', h1, h2⟩ := h.sets imgs t' hm c'
          exact ⟨im', h1, h2.mono _⟩
        · obtain ⟨im', h1, h2⟩ := hcoll c' (hval c')
          exact ⟨im', h1, by rw [htime] at h2; exact h2⟩
      · intro hn
        obtain ⟨hn1, hf⟩ := hfresh hn
        obtain ⟨d1, d2, _, _⟩ := h.nodup hn1
        obtain ⟨n1, n2⟩ := hnd hn
        have hdel : delivered (cs ++ [Call.addImages (s.store c im t).pyr t, Call.update]) =
            delivered cs ++ (List.finRange (nCam + 1)).filterMap (s.store c im t).pyr := by
          rw [delivered_append]; simp [delivered]
        rw [hdel]
        have hnew : ((List.finRange (nCam + 1)).filterMap (s.store c im t).pyr).Nodup := by
          refine (List.nodup_finRange _).filterMap ?_
          intro c₁ c₂ im' h1 h2
          exact n2 c₁ c₂ im' (hval c₁) (hval c₂) h1 h2
        refine ⟨?_, ?_, fun c' im' hv => by simp [resetSet] at hv, fun c' c'' im' hv => by simp [resetSet] at hv⟩
        · rw [List.nodup_append]
          refine ⟨d1, hnew, ?_⟩
          rintro a ha' b hb rfl
          obtain ⟨c', _, hp⟩ := List.mem_filterMap.mp hb
          exact n1 c' a (hval c') hp ha'
        · intro a ha'
          rcases List.mem_append.mp ha' with h1 | h1
          · rw [payloads_append]; exact List.mem_append_left _ (d2 a h1)
          · obtain ⟨c', _, hp⟩ := List.mem_filterMap.mp h1
            obtain ⟨im', q1, q2⟩ := hcoll c' (hval c')
            rw [hp] at q1; cases q1
            exact q2.payload
    · have hcb : s.imgCallback c (some im) t = (s.store c im t, []) := by simp [imgCallback, hi, ha]
      rw [hcb]
      simp only [List.append_nil]
      refine ⟨hcoll, ?_, ?_⟩
      · intro imgs t' hm c'
        obtain ⟨im', h1, h2⟩ := h.sets imgs t' hm c'
        exact ⟨im', h1, h2.mono _⟩
      · intro hn
        obtain ⟨hn1, hf⟩ := hfresh hn
        obtain ⟨d1, d2, _, _⟩ := h.nodup hn1
        obtain ⟨n1, n2⟩ := hnd hn
        exact ⟨d1, fun a ha' => by rw [payloads_append]; exact List.mem_append_left _ (d2 a ha'), n1, n2⟩
  · have hcb : s.imgCallback c (some im) t = (s, []) := by simp [imgCallback, hi]
    rw [hcb]
    simp only [List.append_nil]
    refine ⟨h.coll.mono _ rfl rfl rfl, ?_, ?_⟩
    · intro imgs t' hm c'
      obtain ⟨im', h1, h2⟩ := h.sets imgs t' hm c'
      exact ⟨im', h1, h2.mono _⟩
    · intro hn
      obtain ⟨hn1, hf⟩ := hfresh hn
      obtain ⟨d1, d2, d3, d4⟩ := h.nodup hn1
      exact ⟨d1, fun a ha' => by rw [payloads_append]; exact List.mem_append_left _ (d2 a ha'), d3, d4⟩

lemma inv_same {es : List (Ev Img)} {s s' : St nCam Img} {cs cs' : List (Call nCam Img)} (h : Inv es s cs) (e : Ev Img)
    (hv : s'.valid = s.valid) (hp : s'.pyr = s.pyr) (ht : s'.imgTime = s.imgTime) (hc : ∀ x ∈ cs', ∀ imgs t, x ≠ .addImages imgs t) :
    Inv (es ++ [e]) s' (cs ++ cs') := by
  have hd : delivered (cs ++ cs') = delivered cs := by rw [delivered_append, delivered_nil hc, List.append_nil]
  refine ⟨h.coll.mono _ hv hp ht, ?_, ?_⟩
  · intro imgs t' hm c'
    rcases List.mem_append.mp hm with hm | hm
    · obtain ⟨im', h1, h2⟩ := h.sets imgs t' hm c'
      exact ⟨im', h1, h2.mono _⟩
    · exact absurd rfl (hc _ hm imgs t')
  · intro hn
    rw [payloads_append, List.nodup_append] at hn
    obtain ⟨d1, d2, d3, d4⟩ := h.nodup hn.1
    rw [hd, hv, hp]
    exact ⟨d1, fun a ha' => by rw [payloads_append]; exact List.mem_append_left _ (d2 a ha'), d3, d4⟩

lemma inv_step (timeOffset : ℝ) {es : List (Ev Img)} {s : St nCam Img} {cs : List (Call nCam Img)} (h : Inv es s cs) (e : Ev Img) :
    Inv (es ++ [e]) (step timeOffset s e).1 (cs ++ (step timeOffset s e).2) := by
  by_cases he : e.decoded = true
  · cases e with
    | image cam1 im t =>
      cases im with
      | none => simp [Ev.decoded] at he
      | some im =>
        cases cam1
        · simp only [step, Bool.false_eq_true, if_false]; exact inv_image h 0 _ im t (Or.inl ⟨rfl, rfl⟩)
        · by_cases hc : 1 < nCam + 1
          · simp only [step, if_true]; rw [dif_pos hc]; exact inv_image h ⟨1, hc⟩ _ im t (Or.inr ⟨rfl, rfl⟩)
          · simp only [step, if_true]; rw [dif_neg hc]
            exact inv_same h _ rfl rfl rfl (by simp)
    | _ => simp [Ev.decoded] at he
  · obtain ⟨h1, h2, h3, h4⟩ := step_other timeOffset s e (by simpa using he)
    exact inv_same h e h1 h2 h3 h4

lemma inv_run (timeOffset : ℝ) (es' : List (Ev Img)) : ∀ (es : List (Ev Img)) (s : St nCam Img) (cs : List (Call nCam Img)), Inv es s cs →
    Inv (es ++ es') (run timeOffset s es').1 (cs ++ (run timeOffset s es').2) := by
  induction es' with
  | nil => intro es s cs h; simpa [run] using h
  | cons e es' ih =>
    intro es s cs h
    have := ih _ _ _ (inv_step timeOffset h e)
    simpa [run, List.append_assoc] using this

lemma inv_construct (qMW : Quat) (pose : PoseMeas) : Inv ([] : List (Ev Img)) (construct qMW pose : St nCam Img) [] :=
  ⟨fun c hc => by simp [construct] at hc, fun imgs t hm => by simp at hm, fun _ => ⟨by simp [delivered], by simp [delivered],
    fun c im hv => by simp [construct] at hv, fun c c' im hv => by simp [construct] at hv⟩⟩

/-- For every history of messages: an image set handed to the filter holds for every camera an image that was received from that
camera with exactly the stamp of the set. -/
theorem C55_complete (timeOffset : ℝ) (qMW : Quat) (pose : PoseMeas) (es : List (Ev Img)) (imgs : Fin (nCam + 1) → Option Img) (t : ℝ)
    (h : Call.addImages imgs t ∈ (run timeOffset (construct qMW pose : St nCam Img) es).2) (c : Fin (nCam + 1)) :
    ∃ im, imgs c = some im ∧ Received es c im t := by
  have := inv_run timeOffset es [] _ _ (inv_construct (nCam := nCam) qMW pose)
  simp only [List.nil_append] at this
  exact this.sets imgs t h c

/-- For every history of messages with distinguishable images: no image is handed over twice, neither in two sets nor twice within
one. -/
theorem C55_once (timeOffset : ℝ) (qMW : Quat) (pose : PoseMeas) (es : List (Ev Img)) (h : (payloads es).Nodup) :
    (delivered (run timeOffset (construct qMW pose : St nCam Img) es).2).Nodup := by
  have := inv_run timeOffset es [] _ _ (inv_construct (nCam := nCam) qMW pose)
  simp only [List.nil_append] at this
  exact (this.nodup h).1

/-- With one camera every decoded image that arrives while no reset is outstanding is handed over at once. -/
theorem C55_mono (timeOffset : ℝ) (qMW : Quat) (pose : PoseMeas) (es : List (Ev Img)) (hp : pending es = none) (im : Img) (t : ℝ) :
    (step timeOffset (run timeOffset (construct qMW pose : St 0 Img) es).1 (.image false (some im) t)).2 =
      [.addImages (fun _ => some im) t, .update] := by
  have hT : Tracks (run timeOffset (construct qMW pose : St 0 Img) es).1 (pending es) := tracks_run timeOffset es _ _ rfl
  have hi := (tracks_initialized hT).mpr (by rw [hp]; rfl)
  simp only [step, imgCallback, hi, if_true, Bool.false_eq_true, if_false]
  generalize (run timeOffset (construct qMW pose : St 0 Img) es).1 = s
  have hv : (s.store 0 im t).valid = fun _ => true := by
    funext c; obtain rfl : c = 0 := Fin.ext (by omega)
    unfold store; by_cases ht : t ≠ s.imgTime <;> simp [ht]
  have hpyr : (s.store 0 im t).pyr = fun _ => some im := by
    funext c; obtain rfl : c = 0 := Fin.ext (by omega)
    unfold store; by_cases ht : t ≠ s.imgTime <;> simp [ht]
  have ha : (s.store 0 im t).allValid = true := by simp [allValid, hv]
  simp [ha, hpyr]

lemma run_other (timeOffset : ℝ) (es : List (Ev Img)) : ∀ (s : St nCam Img), (∀ e ∈ es, e.decoded = false) →
    (run timeOffset s es).1.valid = s.valid ∧ (run timeOffset s es).1.pyr = s.pyr ∧ (run timeOffset s es).1.imgTime = s.imgTime := by
  induction es with
  | nil => intro s _; exact ⟨rfl, rfl, rfl⟩
  | cons e es ih =>
    intro s h
    obtain ⟨h1, h2, h3, _⟩ := step_other timeOffset s e (h e (by simp))
    obtain ⟨i1, i2, i3⟩ := ih (step timeOffset s e).1 (fun x hx => h x (by simp [hx]))
    exact ⟨i1.trans h1, i2.trans h2, i3.trans h3⟩

/-- With two cameras: when the two images of a new stamp arrive, in either order, with arbitrary other messages and failed
images in between, the second one hands over exactly these two. -/
theorem C55_stereo (timeOffset : ℝ) (qMW : Quat) (pose : PoseMeas) (es es' : List (Ev Img)) (hp : pending es = none) (first : Bool) (im im' : Img)
    (t : ℝ) (hnew : ∀ c i, Ev.image c (some i) t ∉ es) (hes' : ∀ e ∈ es', e.decoded = false)
    (hp' : pending (es ++ [.image first (some im) t] ++ es') = none) :
    (step timeOffset (run timeOffset (construct qMW pose : St 1 Img) (es ++ [.image first (some im) t] ++ es')).1
      (.image (!first) (some im') t)).2 = [.addImages (fun c => some (if (c.val = 1) = (first = true) then im else im')) t, .update] := by
  -- the state before
  set s₀ := (run timeOffset (construct qMW pose : St 1 Img) es).1 with hs₀
  have hinv := inv_run timeOffset es [] _ _ (inv_construct (nCam := 1) qMW pose)
  simp only [List.nil_append] at hinv
  rw [← hs₀] at hinv
  have hT₀ : Tracks s₀ (pending es) := tracks_run timeOffset es _ _ rfl
  have hi₀ := (tracks_initialized hT₀).mpr (by rw [hp]; rfl)
  have hnone : t = s₀.imgTime → ∀ c, s₀.valid c = false := by
    intro ht c
    by_contra hc
    obtain ⟨i, _, h2⟩ := hinv.coll c (by simpa using hc)
    rw [← ht] at h2
    rcases h2 with ⟨_, h2⟩ | ⟨_, h2⟩
    · exact hnew _ _ h2
    · exact hnew _ _ h2
  have key : ∀ (a b : Fin 2), a ≠ b → ∀ u : St 1 Img, u.valid = (s₀.store a im t).valid → u.pyr = (s₀.store a im t).pyr → u.imgTime = t →
      u.init = .initialized →
      ((s₀.store a im t).allValid = false ∧ (u.imgCallback b (some im') t).2 = [.addImages (fun c => some (if c = a then im else im')) t, .update]) := by
    intro a b hab u hv hpy hti hini
    have hval : ∀ c, (s₀.store a im t).valid c = decide (c = a) := by
      intro c
      by_cases hc : c = a
      · subst hc; unfold store; by_cases ht : t ≠ s₀.imgTime <;> simp [ht]
      · unfold store; by_cases ht : t ≠ s₀.imgTime
        · simp [ht, resetSet, Function.update_of_ne hc, hc]
        · simp only [ht, if_false, Function.update_of_ne hc, hc, decide_false]
          exact hnone (not_not.mp ht) c
    have hother : ∀ c : Fin 2, c = a ∨ c = b := by
      intro c; rcases a with ⟨a, ha⟩; rcases b with ⟨b, hb⟩; rcases c with ⟨c, hc⟩
      simp only [Fin.mk.injEq, ne_eq] at hab ⊢; omega
    have hpa : (s₀.store a im t).pyr a = some im := by
      unfold store; by_cases ht : t ≠ s₀.imgTime <;> simp [ht]
    constructor
    · simp only [allValid, decide_eq_false_iff_not, not_forall]
      exact ⟨b, by rw [hval b]; simp [Ne.symm hab]⟩
    · have hst : u.store b im' t = { u with pyr := Function.update u.pyr b (some im'), valid := Function.update u.valid b true } := by
        unfold store; simp [hti]
      have hall : (u.store b im' t).allValid = true := by
        simp only [allValid, decide_eq_true_eq, hst]
        intro c
        rcases hother c with rfl | rfl
        · rw [Function.update_of_ne hab, hv, hval]; simp
        · simp
      simp only [imgCallback, hini, if_true, hall]
      congr 2
      rw [hst]
      funext c
      rcases hother c with rfl | rfl
      · simp only; rw [Function.update_of_ne hab, hpy, hpa]; simp
      · simp [Ne.symm hab]
  have hfirst : ∀ a : Fin 2, (step timeOffset s₀ (.image first (some im) t)) = s₀.imgCallback a (some im) t → ∀ b : Fin 2, a ≠ b →
      (∀ v : St 1 Img, step timeOffset v (.image (!first) (some im') t) = v.imgCallback b (some im') t) →
      (step timeOffset (run timeOffset (construct qMW pose : St 1 Img) (es ++ [.image first (some im) t] ++ es')).1
        (.image (!first) (some im') t)).2 = [.addImages (fun c => some (if c = a then im else im')) t, .update] := by
    intro a hstep b hab hb
    have hrun : (run timeOffset (construct qMW pose : St 1 Img) (es ++ [.image first (some im) t] ++ es')).1 =
        (run timeOffset (step timeOffset s₀ (.image first (some im) t)).1 es').1 := by
      rw [run_append, run_append]; simp [run, hs₀]
    have hna : (s₀.store a im t).allValid = false := (key a b hab { s₀.store a im t with imgTime := t, init := .initialized } rfl rfl rfl rfl).1
    have hs₁ : (step timeOffset s₀ (.image first (some im) t)).1 = s₀.store a im t := by
      rw [hstep]; simp [imgCallback, hi₀, hna]
    have htime : (s₀.store a im t).imgTime = t := by
      unfold store; by_cases ht : t ≠ s₀.imgTime
      · simp [ht, resetSet]
      · simp only [ht, if_false]; exact (not_not.mp ht).symm
    obtain ⟨o1, o2, o3⟩ := run_other timeOffset es' (s₀.store a im t) hes'
    have hT : Tracks (run timeOffset (construct qMW pose : St 1 Img) (es ++ [.image first (some im) t] ++ es')).1 _ :=
      tracks_run timeOffset _ _ (some .accel) rfl
    have hi := (tracks_initialized hT).mpr (by change (pending _).isNone = true; rw [hp']; rfl)
    rw [hb, hrun, hs₁]
    rw [hrun, hs₁] at hi
    exact (key a b hab _ o1 o2 (o3.trans htime) hi).2
  cases first
  · have := hfirst 0 (by simp [step]) 1 (by simp) (fun v => by simp [step])
    rw [this]
    congr 2
    funext c
    fin_cases c <;> simp
  · have := hfirst 1 (by simp [step]) 0 (by simp) (fun v => by simp [step])
    rw [this]
    congr 2
    funext c
    fin_cases c <;> simp

/-- Non-vacuity: two sets with a lost image between them, arriving in both orders. -/
example (timeOffset : ℝ) (qMW : Quat) (pose : PoseMeas) :
    let es : List (Ev ℕ) := [.imu 0 0 1, .image false (some 10) 1, .image true (some 11) 1, .image false (some 20) 2, .image true (some 31) 3]
    pending es = none ∧ (payloads es).Nodup ∧ (∀ c i, Ev.image c (some i) 4 ∉ es) ∧
    Call.addImages (fun c => some (if (c.val = 1) = (false = true) then 10 else 11)) 1 ∈ (run timeOffset (construct qMW pose : St 1 ℕ) es).2 := by
  intro es
  refine ⟨rfl, by simp [es, payloads], ?_, ?_⟩
  · intro c i h; simp [es] at h
  · have h := C55_stereo timeOffset qMW pose ([.imu 0 0 1] : List (Ev ℕ)) [] rfl false 10 11 1 (by intro c i h; simp at h) (by simp) rfl
    have e1 : es = ([.imu 0 0 1] ++ [.image false (some 10) 1] ++ []) ++ ([.image (!false) (some 11) 1] ++ [.image false (some 20) 2, .image true (some 31) 3]) := rfl
    rw [e1, run_append, run_append]
    refine List.mem_append_right _ (List.mem_append_left _ ?_)
    simp only [run, List.append_nil]
    simp only [run, List.append_nil] at h
    rw [h]; simp

/-- Finding: the half-collected set survives a reset of the filter: an image received before the reset is handed over after it. -/
theorem C55_finding_reset (timeOffset : ℝ) (qMW : Quat) (pose : PoseMeas) (a b acc gyr : V3) (im im' : Img) :
    (run timeOffset (construct qMW pose : St 1 Img) [.imu a b 1, .image false (some im) 2, .reset, .imu acc gyr 2, .image true (some im') 2]).2 =
      [.resetWithAccel a 1, .resetWithAccel acc 2, .addImages (fun c => some (if (c.val = 1) = (false = true) then im else im')) 2, .update] := by
  have h := C55_stereo timeOffset qMW pose [.imu a b 1] [.reset, .imu acc gyr 2] rfl false im im' 2 (by intro c i h; simp at h)
    (by simp [Ev.decoded]) rfl
  have e1 : ([.imu a b 1, .image false (some im) 2, .reset, .imu acc gyr 2, .image true (some im') 2] : List (Ev Img)) =
    ([.imu a b 1] ++ [.image false (some im) 2] ++ [.reset, .imu acc gyr 2]) ++ [.image (!false) (some im') 2] := rfl
  rw [e1, run_append]
  have h2 : (run timeOffset (construct qMW pose : St 1 Img) ([.imu a b 1] ++ [.image false (some im) 2] ++ [.reset, .imu acc gyr 2])).2 =
      [.resetWithAccel a 1, .resetWithAccel acc 2] := by
    simp [run, step, imuCallback, construct, imgCallback, store, resetSet, allValid, requestReset, Fin.forall_fin_two]
  rw [h2]
  simp only [run, List.append_nil]
  rw [h]; simp

/-- Finding: with three or more cameras no image set is ever handed over: only the topics of the first two cameras exist. -/
theorem C55_finding_three (timeOffset : ℝ) (qMW : Quat) (pose : PoseMeas) (es : List (Ev Img)) (hn : 2 ≤ nCam) (imgs : Fin (nCam + 1) → Option Img)
    (t : ℝ) : Call.addImages imgs t ∉ (run timeOffset (construct qMW pose : St nCam Img) es).2 := by
  intro h
  obtain ⟨im, _, h2⟩ := C55_complete timeOffset qMW pose es imgs t h ⟨2, by omega⟩
  rcases h2 with ⟨h2, _⟩ | ⟨h2, _⟩ <;> simp at h2

end Node

end Rovio
