import Verif.Spec.Sim

/-! # Filter states that correspond stay so -/

namespace Rovio

open Spec

variable {P W K : Type} {n nCam : ℕ} {R : P → P → Prop}

namespace Spec

lemma Both.refl {α : Type} {R : α → α → Prop} (h : ∀ a, R a a) (x : Option α) : Both R x x := by
  cases x
  · exact .none
  · exact .some (h _)

lemma Both.bind {α β : Type} {R : α → α → Prop} {S : β → β → Prop} {x y : Option α} {f g : α → Option β} (h : Both R x y)
    (hfg : ∀ a b, R a b → Both S (f a) (g b)) : Both S (x.bind f) (y.bind g) := by
  cases h with
  | none => exact .none
  | some h => exact hfg _ _ h

lemma Both.mono {α : Type} {R S : α → α → Prop} {x y : Option α} (h : Both R x y) (hRS : ∀ a b, R a b → S a b) : Both S x y := by
  cases h with
  | none => exact .none
  | some h => exact .some (hRS _ _ h)

lemma foldl_rel {α β : Type} {R : β → β → Prop} {f g : β → α → β} (h : ∀ a b x, R a b → R (f a x) (g b x)) :
    ∀ (l : List α) (a b : β), R a b → R (l.foldl f a) (l.foldl g b)
  | [], _, _, hab => hab
  | x :: l, a, b, hab => foldl_rel h l _ _ (h a b x hab)

lemma foldlM_rel {α β : Type} {R : β → β → Prop} {f g : β → α → Option β} (h : ∀ a b x, R a b → Both R (f a x) (g b x)) :
    ∀ (l : List α) (a b : β), R a b → Both R (l.foldlM f a) (l.foldlM g b)
  | [], _, _, hab => .some hab
  | x :: l, a, b, hab => by
    simp only [List.foldlM_cons]
    exact (h a b x hab).bind fun _ _ hab => foldlM_rel h l _ _ hab

lemma foldl_mem {α β : Type} {Q : β → Prop} {R : β → β → Prop} {f g : β → α → β} (S : α → Prop)
    (h : ∀ a b x, S x → Q a → R a b → R (f a x) (g b x) ∧ Q (f a x)) :
    ∀ (l : List α) (a b : β), (∀ x ∈ l, S x) → Q a → R a b → R (l.foldl f a) (l.foldl g b)
  | [], _, _, _, _, hab => hab
  | x :: l, a, b, hl, hq, hab => by
    obtain ⟨h1, h2⟩ := h a b x (hl x (by simp)) hq hab
    exact foldl_mem S h l _ _ (fun y hy => hl y (by simp [hy])) h2 h1

end Spec

/-! ### The feature set -/

lemma same_validCount {a b : FeatSet P n} (h : SameSetBy R a b) : a.getValidCount = b.getValidCount := by
  unfold FeatSet.getValidCount
  congr 1
  funext k i
  rw [(h.slots i).valid]

lemma same_free {a b : FeatSet P n} (h : SameSetBy R a b) : a.getFreeIndex = b.getFreeIndex := by
  unfold FeatSet.getFreeIndex
  congr 1
  funext i
  rw [(h.slots i).valid]

lemma same_remove {a b : FeatSet P n} (h : SameSetBy R a b) (i : Fin n) : SameSetBy R (a.removeFeature i) (b.removeFeature i) := by
  refine ⟨fun j => ?_, h.maxIdx⟩
  unfold FeatSet.removeFeature
  by_cases hj : j = i
  · subst hj
    simp only [Function.update_self]
    exact ⟨rfl, (h.slots _).idx, (h.slots _).coord, by simp⟩
  · simp only [Function.update_of_ne hj]
    exact h.slots j

namespace AddArgs

/-- The states of the insertion loop are the same. -/
structure SameLoop (R : P → P → Prop) (old : Fin n → Bool) {I : USet} (a b : AddArgs.St P n I) : Prop where
  set : SameSetBy R a.set b.set
  bk : a.bk = b.bk
  added : a.added = b.added
  ids : a.ids = b.ids
  valid : ∀ i ∈ a.ids, (a.set.slots i).valid = true
  fresh : ∀ i, (a.set.slots i).valid = true → old i = true ∨ i ∈ a.ids

variable {A B : AddArgs P}

lemma alike_score (h : SameArgs R A B) : A.score = B.score := by
  funext k
  unfold score
  rw [← h.inFrame]
  split_ifs with hk
  · exact h.shi k hk
  · rfl

lemma alike_maxScore (h : SameArgs R A B) : A.maxScore = B.maxScore := by
  unfold maxScore
  rw [← h.nc, ← h.inFrame]
  congr 1
  funext m k
  by_cases hk : A.inFrame k = true
  · simp only [hk, if_true, h.shi k hk]
  · simp only [hk, if_false, Bool.false_eq_true]

lemma alike_fill (h : SameArgs R A B) (hm : A.minScore = B.minScore) (I : USet) : A.fill I = B.fill I := by
  have h1 : A.fillOne I = B.fillOne I := by
    funext bk k
    unfold fillOne
    rw [alike_score h, alike_maxScore h, hm, h.nb, h.exponent]
  unfold fill
  rw [h1, h.nc]

lemma alike_penalise (h : SameArgs R A B) (I : USet) : A.penalise I = B.penalise I := by
  have h1 : A.visit I = B.visit I := by
    funext p b bk x
    unfold visit newBucket t2
    rw [h.cand, h.penaltyDistance, h.zeroPenalty, h.nb]
  have h2 : A.penaliseBucket I = B.penaliseBucket I := by
    funext p bk b
    unfold penaliseBucket
    rw [h1]
  funext p hi bk
  unfold penalise
  rw [h2]

lemma alike_existing (h : SameArgs R A B) (I : USet) {a b : FeatSet P n} (hab : SameSetBy R a b) (bk : Buckets I) :
    A.penaliseExisting I a bk = B.penaliseExisting I b bk := by
  unfold penaliseExisting
  congr 1
  funext bk i
  rw [← (hab.slots i).valid]
  by_cases hv : (a.slots i).valid = true
  · rw [h.view _ _ (hab.slots i) hv, alike_penalise h, h.nb]
  · simp [hv]

/-! What is in the buckets -/

variable {I : USet} {Good : ℕ → Prop}

/-- Everything in the buckets is good. -/
def AllGood (Good : ℕ → Prop) (I : USet) (bk : Buckets I) : Prop := ∀ b, ∀ x ∈ I.elems (bk b), Good x

lemma insert_mem (hI : I.Lawful) {s : I.σ} {x y : ℕ} (h : y ∈ I.elems (I.insert s x)) : y = x ∨ y ∈ I.elems s := by
  by_cases hx : x ∈ I.elems s
  · exact .inr ((hI.insert_old s x hx).mem_iff.1 h)
  · simpa using (hI.insert_new s x hx).mem_iff.1 h

lemma erase_mem (hI : I.Lawful) {s : I.σ} {x y : ℕ} (h : y ∈ I.elems (I.erase s x)) : y ∈ I.elems s := by
  rw [hI.erase] at h
  exact List.mem_of_mem_erase h

lemma good_update {bk : Buckets I} (hb : AllGood Good I bk) (b : ℕ) {s : I.σ} (hs : ∀ x ∈ I.elems s, Good x) :
    AllGood Good I (Function.update bk b s) := by
  intro b' x hx
  by_cases h : b' = b
  · subst h; simp only [Function.update_self] at hx; exact hs x hx
  · simp only [Function.update_of_ne h] at hx; exact hb b' x hx

lemma good_fold {α : Type} {f : Buckets I → α → Option (Buckets I)} (S : α → Prop)
    (h : ∀ bk x bk', S x → AllGood Good I bk → f bk x = some bk' → AllGood Good I bk') :
    ∀ (l : List α) (bk bk' : Buckets I), (∀ x ∈ l, S x) → AllGood Good I bk → l.foldlM f bk = some bk' → AllGood Good I bk'
  | [], bk, bk', _, hb, hf => by simp only [List.foldlM_nil, Option.pure_def, Option.some.injEq] at hf; exact hf ▸ hb
  | x :: l, bk, bk', hS, hb, hf => by
    simp only [List.foldlM_cons, Option.bind_eq_bind, Option.bind_eq_some_iff] at hf
    obtain ⟨bk1, h1, h2⟩ := hf
    exact good_fold S h l bk1 bk' (fun y hy => hS y (by simp [hy])) (h bk x bk1 (hS x (by simp)) hb h1) h2

lemma good_visit (hI : I.Lawful) {p : V2} {b : ℕ} {bk bk' : Buckets I} {x : ℕ} (hx : Good x) (hb : AllGood Good I bk)
    (h : A.visit I p b bk x = some bk') : AllGood Good I bk' := by
  unfold visit at h
  simp only at h
  split_ifs at h
  · cases hn : A.newBucket b (sqDist p (A.cand x)) with
    | none => rw [hn] at h; simp at h
    | some nb' =>
      rw [hn] at h
      simp only at h
      split_ifs at h
      · simp only [Option.some.injEq] at h
        subst h
        have h1 : AllGood Good I (Function.update bk nb' (I.insert (bk nb') x)) :=
          good_update hb nb' fun y hy => (insert_mem hI hy).elim (fun e => e ▸ hx) (hb nb' y)
        exact good_update h1 b fun y hy => h1 b y (erase_mem hI hy)
      · simp only [Option.some.injEq] at h; exact h ▸ hb
  · simp only [Option.some.injEq] at h; exact h ▸ hb

lemma good_penalise (hI : I.Lawful) {p : V2} {hi : ℕ} {bk bk' : Buckets I} (hb : AllGood Good I bk)
    (h : A.penalise I p hi bk = some bk') : AllGood Good I bk' := by
  unfold penalise at h
  refine good_fold (fun _ => True) (fun bk b bk' _ hb h => ?_) _ _ _ (by simp) hb h
  unfold penaliseBucket at h
  exact good_fold Good (fun bk x bk' hx hb h => good_visit hI hx hb h) _ _ _ (hb b) hb h

lemma good_existing (hI : I.Lawful) {s : FeatSet P n} {bk bk' : Buckets I} (hb : AllGood Good I bk)
    (h : A.penaliseExisting I s bk = some bk') : AllGood Good I bk' := by
  unfold penaliseExisting at h
  refine good_fold (fun _ => True) (fun bk i bk' _ hb h => ?_) _ _ _ (by simp) hb h
  split_ifs at h
  · cases hv : A.view (s.slots i) with
    | none => rw [hv] at h; simp only [Option.some.injEq] at h; exact h ▸ hb
    | some p => rw [hv] at h; exact good_penalise hI hb h
  · simp only [Option.some.injEq] at h; exact h ▸ hb

/-- With a minimal score of at least -1 only candidates inside the image get into the buckets. -/
lemma good_fill (hI : I.Lawful) (hm : -1 ≤ A.minScore) (hmm : A.minScore < A.maxScore) {bk : Buckets I} (h : A.fill I = some bk) :
    AllGood (fun x => A.inFrame x = true) I bk := by
  unfold fill at h
  refine good_fold (fun _ => True) (fun bk x bk' _ hb h => ?_) _ _ _ (by simp) (fun b x hx => by simp [hI.empty] at hx) h
  unfold fillOne at h
  simp only at h
  split_ifs at h with hs
  · have hin : A.inFrame x = true := by
      by_contra hx
      have : A.score x = -1 := by unfold score; simp [hx]
      rw [this] at hs
      have : (-1 - A.minScore) / (A.maxScore - A.minScore) ≤ 0 := div_nonpos_of_nonpos_of_nonneg (by linarith) (by linarith)
      norm_num at hs
      linarith
    cases hc : cUInt (⌈((A.nb : ℝ) - 1) * ((A.score x - A.minScore) / (A.maxScore - A.minScore)) ^ A.exponent⌉ : ℝ) with
    | none => rw [hc] at h; simp at h
    | some c =>
      rw [hc] at h
      simp only at h
      generalize (if c > A.nb - 1 then A.nb - 1 else c) = b at h
      split_ifs at h
      simp only [Option.some.injEq] at h
      subst h
      exact good_update hb b fun y hy => (insert_mem hI hy).elim (fun e => e ▸ hin) (hb b y)
  · simp only [Option.some.injEq] at h; exact h ▸ hb

/-- One turn of the insertion: the slot found free is filled with the same contents. -/
lemma alike_write (h : SameArgs R A B) (hc : A.camID = B.camID) {a b : FeatSet P n} (hab : SameSetBy R a b) (ind : Fin n) (nf : ℕ)
    (hp : R (A.patch nf) (B.patch nf)) {a' b' : FeatSet P n} (ha : a.makeNewFeature = (a', some ind)) (hb : b.makeNewFeature = (b', some ind)) :
    SameSetBy R { a' with slots := Function.update a'.slots ind (A.writeFeature (a'.slots ind) nf) }
      { b' with slots := Function.update b'.slots ind (B.writeFeature (b'.slots ind) nf) } ∧
    (∀ i, ((Function.update a'.slots ind (A.writeFeature (a'.slots ind) nf)) i).valid = true ↔ (a.slots i).valid = true ∨ i = ind) := by
  have hf := same_free hab
  unfold FeatSet.makeNewFeature at ha hb
  rw [← hf] at hb
  cases hfr : a.getFreeIndex with
  | none => rw [hfr] at ha; simp at ha
  | some k =>
    rw [hfr] at ha hb
    simp only [Prod.mk.injEq, Option.some.injEq] at ha hb
    obtain ⟨ha, rfl⟩ := ha
    obtain ⟨hb, -⟩ := hb
    subst ha hb
    constructor
    · refine ⟨fun j => ?_, by simp [hab.maxIdx]⟩
      simp only
      by_cases hj : j = k
      · subst hj
        simp only [Function.update_self, writeFeature]
        exact ⟨rfl, by simp [hab.maxIdx], by simp [(hab.slots j).coord, h.cand, h.cam, hc], fun _ => hp⟩
      · simp only [Function.update_of_ne hj]
        exact hab.slots j
    · intro i
      by_cases hj : i = k
      · subst hj
        simp [writeFeature]
      · simp [hj]

/-- The settings that are not part of the candidates are the same as well. -/
structure SameSet (A B : AddArgs P) : Prop where
  camID : A.camID = B.camID
  maxAdded : A.maxAdded = B.maxAdded
  requireMax : A.requireMax = B.requireMax
  minScore : A.minScore = B.minScore

lemma alike_while {old : Fin n → Bool} (h : SameArgs R A B) (hs : SameSet A B) (hI : I.Lawful ∨ ∀ x, Good x) (hg : ∀ x, Good x → R (A.patch x) (B.patch x)) (b : ℕ) :
    ∀ (fuel : ℕ) (x y : AddArgs.St P n I), SameLoop R old x y → AllGood Good I x.bk →
      Both (fun u v => SameLoop R old u v ∧ AllGood Good I u.bk) (A.whileBucket I b fuel x) (B.whileBucket I b fuel y)
  | 0, _, _, _, _ => .none
  | fuel + 1, x, y, hxy, hgood => by
    unfold whileBucket
    rw [← hxy.bk, ← hxy.added, ← same_validCount hxy.set, ← hs.maxAdded]
    cases hel : I.elems (x.bk b) with
    | nil => exact .some ⟨hxy, hgood⟩
    | cons nf l =>
      simp only
      split_ifs with hc
      · have hf := same_free hxy.set
        cases hx : x.set.makeNewFeature with
        | mk a' ia =>
          cases hy : y.set.makeNewFeature with
          | mk b' ib =>
            have hi : ia = ib := by
              unfold FeatSet.makeNewFeature at hx hy
              rw [← hf] at hy
              cases hfr : x.set.getFreeIndex <;> rw [hfr] at hx hy <;> simp only [Prod.mk.injEq] at hx hy <;> rw [← hx.2, ← hy.2]
            subst hi
            cases ia with
            | none => exact .none
            | some ind =>
              obtain ⟨h1, h2⟩ := alike_write h hs.camID hxy.set ind nf (hg nf (hgood b nf (by rw [hel]; simp))) hx hy
              simp only
              rw [← alike_penalise h, ← h.cand]
              cases hp : A.penalise I (A.cand nf) b (Function.update x.bk b (I.erase (x.bk b) nf)) with
              | none => exact .none
              | some bk =>
                refine alike_while h hs hI hg b fuel _ _ ⟨h1, rfl, rfl, by simp [hxy.ids], ?_, ?_⟩ ?_
                · intro i hi
                  simp only [Finset.mem_insert] at hi
                  exact (h2 i).2 (hi.elim (fun e => .inr e) fun e => .inl (hxy.valid i e))
                · intro i hi
                  simp only [Finset.mem_insert]
                  rcases (h2 i).1 hi with hi | hi
                  · exact (hxy.fresh i hi).imp_right .inr
                  · exact .inr (.inl hi)
                · rcases hI with hI | hI
                  · exact good_penalise hI (good_update hgood b fun y hy => hgood b y (erase_mem hI hy)) hp
                  · exact fun _ x _ => hI x
      · exact .some ⟨hxy, hgood⟩

lemma alike_addLoop {old : Fin n → Bool} (h : SameArgs R A B) (hs : SameSet A B) (hI : I.Lawful ∨ ∀ x, Good x) (hg : ∀ x, Good x → R (A.patch x) (B.patch x)) (lo : ℕ) :
    ∀ (k : ℕ) (x y : AddArgs.St P n I), SameLoop R old x y → AllGood Good I x.bk → Both (SameLoop R old) (A.addLoop I lo k x) (B.addLoop I lo k y)
  | 0, _, _, h, _ => .some h
  | k + 1, x, y, hxy, hgood => by
    unfold addLoop
    have hw := alike_while h hs hI hg (lo + k) (n + 1) x y hxy hgood
    revert hw
    cases A.whileBucket I (lo + k) (n + 1) x <;> cases B.whileBucket I (lo + k) (n + 1) y <;> intro hw
    · exact .none
    · cases hw
    · cases hw
    · cases hw with | some hw => exact alike_addLoop h hs hI hg lo k _ _ hw.1 hw.2

lemma alike_add (h : SameArgs R A B) (hs : SameSet A B)
    (hI : (I.Lawful ∧ -1 ≤ A.minScore) ∨ ∀ x, R (A.patch x) (B.patch x)) {a b : FeatSet P n} (hab : SameSetBy R a b) :
    Both (fun x y => SameSetBy R x.1 y.1 ∧ x.2 = y.2 ∧ (∀ i ∈ x.2, (x.1.slots i).valid = true) ∧
      ∀ i, (x.1.slots i).valid = true → (a.slots i).valid = true ∨ i ∈ x.2) (A.addBestCandidates I a) (B.addBestCandidates I b) := by
  unfold addBestCandidates
  rw [← alike_maxScore h, ← hs.minScore, ← alike_fill h hs.minScore, ← hs.requireMax, ← h.nb]
  by_cases hm : A.maxScore ≤ A.minScore
  · simp only [if_pos hm]
    exact .some ⟨hab, rfl, by simp, fun i hi => .inl hi⟩
  · simp only [if_neg hm]
    cases hf : A.fill I with
    | none => exact .none
    | some bk =>
      simp only
      rw [← alike_existing h I hab]
      cases he : A.penaliseExisting I a bk with
      | none => exact .none
      | some bk =>
        simp only
        have hw : ∀ lo, Both (SameLoop R fun i => (a.slots i).valid) (A.addLoop I lo (A.nb - lo) ⟨a, bk, 0, ∅⟩) (B.addLoop I lo (A.nb - lo) ⟨b, bk, 0, ∅⟩) := by
          intro lo
          rcases hI with ⟨hI, hmin⟩ | hI
          · exact alike_addLoop (Good := fun x => A.inFrame x = true) h hs (.inl hI) h.patch lo (A.nb - lo) ⟨a, bk, 0, ∅⟩ ⟨b, bk, 0, ∅⟩
              ⟨hab, rfl, rfl, rfl, by simp, fun i hi => .inl hi⟩ (good_existing hI (good_fill hI hmin (not_le.1 hm) hf) he)
          · exact alike_addLoop (Good := fun _ => True) h hs (.inr fun _ => trivial) (fun x _ => hI x) lo (A.nb - lo) ⟨a, bk, 0, ∅⟩ ⟨b, bk, 0, ∅⟩
              ⟨hab, rfl, rfl, rfl, by simp, fun i hi => .inl hi⟩ (fun _ _ _ => trivial)
        generalize (if A.requireMax then 0 else 1 : ℕ) = lo
        have hw := hw lo
        revert hw
        generalize A.addLoop I lo (A.nb - lo) ⟨a, bk, 0, ∅⟩ = u
        generalize B.addLoop I lo (A.nb - lo) ⟨b, bk, 0, ∅⟩ = v
        intro hw
        cases hw with
        | none => exact .none
        | some hw => exact .some ⟨hw.set, hw.ids, hw.valid, hw.fresh⟩

end AddArgs

/-! ### One image -/

namespace Img

variable {ρ : Rels P W K nCam} {cfg : Cfg} {env env' : Env P W K n nCam}

lemma sim_valid {live : Fin n → Bool} {a b : St P W K n nCam} (h : SimOn ρ live a b) (i : Fin n) : a.valid i = b.valid i := (h.fsm.slots i).valid

lemma sim_camID {live : Fin n → Bool} {a b : St P W K n nCam} (h : SimOn ρ live a b) (i : Fin n) : a.camID i = b.camID i := by
  unfold St.camID; rw [(h.fsm.slots i).coord]

lemma sim_ext {a b : St P W K n nCam} (h : SimBy ρ a b) {i : Fin n} (hv : a.valid i = true) : ρ.ext true (a.ext i) (b.ext i) := by
  have := h.ext i; rwa [hv] at this

/-- Statistics of one slot change in parallel. -/
lemma sim_setExt {live live' : Fin n → Bool} {a b : St P W K n nCam} (h : SimOn ρ live a b) (i : Fin n) (e e' : Ext nCam) (l l' : List (Visit n nCam)) (hl : l = l')
    (he : ρ.ext (live' i) e e') (hlive : ∀ j, j ≠ i → live' j = live j) :
    SimOn ρ live' { a with ext := Function.update a.ext i e, log := l } { b with ext := Function.update b.ext i e', log := l' } := by
  refine ⟨h.w, h.cov, h.fsm, fun j => ?_, h.meas, h.id, h.cam, h.t, h.imageCounter, h.sinceImage, h.sinceInertial, hl⟩
  by_cases hj : j = i
  · subst hj; simpa only [Function.update_self] using he
  · simp only [Function.update_of_ne hj, hlive j hj]; exact h.ext j

lemma sim_enter (hρ : ρ.Ok) {a b : St P W K n nCam} (h : SimBy ρ a b) (i : Fin n) (hv : a.valid i = true) : SimBy ρ (a.enter i) (b.enter i) := by
  unfold St.enter St.increase
  have hc := h.cam
  by_cases h0 : a.cam = 0
  · rw [if_pos h0, if_pos (hc ▸ h0)]
    exact sim_setExt h i _ _ a.log b.log h.log (by show ρ.ext (a.valid i) _ _; rw [hv]; exact hρ.increase _ _ _ _ (sim_ext h hv) h.t) fun _ _ => rfl
  · rw [if_neg h0, if_neg (hc ▸ h0)]
    exact h

lemma sim_setStatus (hρ : ρ.Ok) {a b : St P W K n nCam} (h : SimBy ρ a b) (i : Fin n) (hv : a.valid i = true) (c : Fin nCam) (st : Stat.Status) :
    SimBy ρ (a.setStatus i c st) (b.setStatus i c st) :=
  sim_setExt h i _ _ _ _ (by rw [h.log]) (by show ρ.ext (a.valid i) _ _; rw [hv]; exact hρ.setStatus _ _ _ _ (sim_ext h hv)) fun _ _ => rfl

lemma sim_removeAt (hρ : ρ.Ok) (hb : Similar ρ env env') {a b : St P W K n nCam} (h : SimBy ρ a b) (i : Fin n) : SimBy ρ (a.remove env i) (b.remove env' i) := by
  refine ⟨h.w, hb.resetCov _ _ h.cov i, same_remove h.fsm i, fun j => ?_, h.meas, h.id, h.cam, h.t, h.imageCounter, h.sinceImage, h.sinceInertial, h.log⟩
  have hj := h.ext j
  by_cases hji : j = i
  · have : (a.remove env i).valid j = false := by subst hji; simp [St.remove, St.valid, FeatSet.removeFeature]
    rw [this]
    cases hv : a.valid j with
    | true => rw [hv] at hj; exact hρ.drop _ _ hj
    | false => rw [hv] at hj; exact hj
  · have : (a.remove env i).valid j = a.valid j := by simp [St.remove, St.valid, FeatSet.removeFeature, Function.update_of_ne hji]
    rw [this]; exact hj

lemma sim_advance {a b : St P W K n nCam} (h : SimBy ρ a b) : SimBy ρ (advance cfg a) (advance cfg b) := by
  unfold advance
  rw [← h.cam, ← h.id]
  split_ifs
  · exact ⟨h.w, h.cov, h.fsm, h.ext, h.meas, rfl, rfl, h.t, h.imageCounter, h.sinceImage, h.sinceInertial, h.log⟩
  · exact ⟨h.w, h.cov, h.fsm, h.ext, h.meas, rfl, rfl, h.t, h.imageCounter, h.sinceImage, h.sinceInertial, h.log⟩

/-- Both matched or both failed alike. -/
inductive SimProbe (ρ : Rels P W K nCam) : St P W K n nCam ⊕ Stat.Status → St P W K n nCam ⊕ Stat.Status → Prop where
  | inl {a b : St P W K n nCam} : SimBy ρ a b → SimProbe ρ (.inl a) (.inl b)
  | inr (st : Stat.Status) : SimProbe ρ (.inr st) (.inr st)

lemma sim_probe (hb : Similar ρ env env') {a b : St P W K n nCam} (h : SimBy ρ a b) (i : Fin n) (hv : a.valid i = true) (c : Fin nCam) :
    SimProbe ρ (probe cfg env a i c) (probe cfg env' b i c) := by
  unfold probe
  rw [hb.inPrev a b h i c hv, hb.align a b h i c hv, h.meas]
  split_ifs
  · exact .inr _
  · exact .inl h
  · split
    · next x _ =>
      rw [hb.inNew a b h, hb.err a b h i c x hv]
      split_ifs
      · exact .inr _
      · exact .inl ⟨h.w, h.cov, h.fsm, h.ext, rfl, h.id, h.cam, h.t, h.imageCounter, h.sinceImage, h.sinceInertial, h.log⟩
      · exact .inr _
    · exact .inr _

lemma sim_scan (hρ : ρ.Ok) (hb : Similar ρ env env') : ∀ (fuel : ℕ) (a b : St P W K n nCam), SimBy ρ a b →
    Both (fun x y => SimBy ρ x.1 y.1 ∧ x.2 = y.2 ∧ (x.2 = true → ∀ h : x.1.id < n, x.1.valid ⟨x.1.id, h⟩ = true))
      (scan cfg env fuel a) (scan cfg env' fuel b)
  | 0, _, _, _ => .none
  | fuel + 1, a, b, h => by
    unfold scan
    rw [← h.id]
    by_cases hn : a.id < n
    · simp only [dif_pos hn]
      rw [← sim_valid h, ← sim_camID h, ← h.cam]
      split_ifs with hv
      · cases activeCam nCam a.cam (a.camID ⟨a.id, hn⟩) with
        | none => exact .none
        | some c =>
          simp only
          have he := sim_enter hρ h ⟨a.id, hn⟩ hv
          have hev : (a.enter ⟨a.id, hn⟩).valid ⟨a.id, hn⟩ = true := by
            unfold St.enter St.increase; split_ifs <;> exact hv
          have hp := sim_probe (cfg := cfg) hb he ⟨a.id, hn⟩ hev c
          have hpv : ∀ x, probe cfg env (a.enter ⟨a.id, hn⟩) ⟨a.id, hn⟩ c = .inl x → ∀ h : x.id < n, x.valid ⟨x.id, h⟩ = true := by
            intro x hx hlt
            have : x.id = a.id ∧ x.fsm = a.fsm := by
              unfold probe at hx
              have e : (a.enter ⟨a.id, hn⟩).id = a.id ∧ (a.enter ⟨a.id, hn⟩).fsm = a.fsm := by
                unfold St.enter St.increase; split_ifs <;> exact ⟨rfl, rfl⟩
              split_ifs at hx
              · simp only [Sum.inl.injEq] at hx; subst hx; exact e
              · split at hx
                · split_ifs at hx
                  simp only [Sum.inl.injEq] at hx; subst hx; exact e
                · simp at hx
            unfold St.valid
            simp only [this.1, this.2]
            exact hv
          revert hp hpv
          generalize probe cfg env (a.enter ⟨a.id, hn⟩) ⟨a.id, hn⟩ c = u
          generalize probe cfg env' (b.enter ⟨a.id, hn⟩) ⟨a.id, hn⟩ c = v
          intro hp hpv
          cases hp with
          | inl hp => exact .some ⟨hp, rfl, fun _ => hpv _ rfl⟩
          | inr st => exact sim_scan hρ hb fuel _ _ (sim_advance (sim_setStatus hρ he _ hev _ _))
      · exact sim_scan hρ hb fuel _ _ (sim_advance h)
    · simp only [dif_neg hn]
      exact .some ⟨h, rfl, by simp⟩

lemma sim_removeNegative (hρ : ρ.Ok) (hb : Similar ρ env env') {a b : St P W K n nCam} (h : SimBy ρ a b) : SimBy ρ (removeNegative cfg env a) (removeNegative cfg env' b) := by
  unfold removeNegative
  split_ifs
  · refine foldl_rel ?_ _ _ _ h
    intro a b i h
    rw [← sim_valid h, ← hb.dist _ _ h.w]
    split_ifs
    · exact sim_removeAt hρ hb h i
    · exact h
    · exact h
  · exact h

/-- Coordinates of all features change in parallel. -/
lemma sim_coords {a b : FeatSet P n} {R : P → P → Prop} (h : SameSetBy R a b) (co co' : Fin n → FC) (hc : co = co') :
    SameSetBy R { a with slots := fun j => { a.slots j with coord := { co j with camID := (a.slots j).coord.camID } } }
      { b with slots := fun j => { b.slots j with coord := { co' j with camID := (b.slots j).coord.camID } } } := by
  subst hc
  exact ⟨fun j => ⟨(h.slots j).valid, (h.slots j).idx, by simp only [(h.slots j).coord], (h.slots j).patch⟩, h.maxIdx⟩

lemma sim_applyUpdate (hb : Similar ρ env env') {a b : St P W K n nCam} (h : SimBy ρ a b) (i : Fin n) (hv : a.valid i = true) (c : Fin nCam) :
    SimBy ρ (applyUpdate env a i c).1 (applyUpdate env' b i c).1 ∧ (applyUpdate env a i c).2 = (applyUpdate env' b i c).2 := by
  have hu := hb.update a b h i c hv
  refine ⟨⟨hb.updateW a b h i c hv, hb.updateK a b h i c hv, ?_, h.ext, h.meas, h.id, h.cam, h.t, h.imageCounter, h.sinceImage, h.sinceInertial, h.log⟩, ?_⟩
  · exact sim_coords h.fsm _ _ (congrArg Prod.fst hu)
  · exact congrArg (fun r => r.2) hu

lemma sim_postVisit (hρ : ρ.Ok) (hb : Similar ρ env env') {a b : St P W K n nCam} (h : SimBy ρ a b) (ok : Bool) (i : Fin n) (c : Fin nCam) :
    SimBy ρ (postVisit cfg env a ok i c) (postVisit cfg env' b ok i c) := by
  unfold postVisit
  have hr := sim_removeNegative (cfg := cfg) hρ hb h
  refine sim_advance ?_
  unfold verdict
  rw [← sim_valid hr, ← hr.log]
  by_cases hv : (removeNegative cfg env a).valid i = true
  · rw [if_pos hv, if_pos hv, hb.inPost _ _ hr i c hv]
    exact sim_setStatus hρ hr _ hv _ _
  · rw [if_neg hv, if_neg hv]
    exact ⟨hr.w, hr.cov, hr.fsm, hr.ext, hr.meas, hr.id, hr.cam, hr.t, hr.imageCounter, hr.sinceImage, hr.sinceInertial, rfl⟩

lemma sim_loop (hρ : ρ.Ok) (hb : Similar ρ env env') : ∀ (fuel : ℕ) (a b : St P W K n nCam), SimBy ρ a b → Both (SimBy ρ) (loop cfg env fuel a) (loop cfg env' fuel b)
  | 0, _, _, _ => .none
  | fuel + 1, a, b, h => by
    unfold loop
    have hs := sim_scan (cfg := cfg) hρ hb (n * nCam + 1) a b h
    revert hs
    generalize scan cfg env (n * nCam + 1) a = u
    generalize scan cfg env' (n * nCam + 1) b = v
    intro hs
    cases hs with
    | none => exact .none
    | @some x y hs =>
      obtain ⟨a, fa⟩ := x
      obtain ⟨b, fb⟩ := y
      obtain ⟨h, hf, hv⟩ := hs
      simp only at h hf hv
      subst hf
      cases fa with
      | false => exact .some h
      | true =>
        simp only
        rw [← h.id]
        split_ifs with hn
        · rw [← sim_camID h, ← h.cam]
          cases activeCam nCam a.cam (a.camID ⟨a.id, hn⟩) with
          | none => exact .none
          | some c =>
            simp only
            obtain ⟨h1, h2⟩ := sim_applyUpdate hb h ⟨a.id, hn⟩ (hv rfl hn) c
            rw [h2]
            exact sim_loop hρ hb fuel _ _ (sim_postVisit hρ hb h1 _ _ _)
        · exact .none

lemma sim_commonPre (hb : Similar ρ env env') {a b : St P W K n nCam} (h : SimBy ρ a b) : SimBy ρ (commonPre cfg env a) (commonPre cfg env' b) := by
  unfold commonPre
  simp only
  rw [← h.imageCounter]
  have h' : SimBy ρ { a with imageCounter := a.imageCounter + 1, id := 0, cam := 0 } { b with imageCounter := a.imageCounter + 1, id := 0, cam := 0 } :=
    ⟨h.w, h.cov, h.fsm, h.ext, h.meas, rfl, rfl, h.t, rfl, h.sinceImage, h.sinceInertial, h.log⟩
  have hm : imageMotion cfg env { a with imageCounter := a.imageCounter + 1, id := 0, cam := 0 } =
      imageMotion cfg env' { b with imageCounter := a.imageCounter + 1, id := 0, cam := 0 } := by
    have : motionCounts env { a with imageCounter := a.imageCounter + 1, id := 0, cam := 0 } =
        motionCounts env' { b with imageCounter := a.imageCounter + 1, id := 0, cam := 0 } := by
      unfold motionCounts
      congr 1
      funext acc i
      rw [← sim_valid h']
      split_ifs with hv
      · rw [hb.moving _ _ h' i hv]
      · rfl
    unfold imageMotion
    rw [this]
  rw [hm]
  split_ifs
  · exact ⟨h.w, h.cov, h.fsm, h.ext, h.meas, rfl, rfl, h.t, rfl, rfl, h.sinceInertial, h.log⟩
  · exact h'
  · exact h'

lemma sim_refresh (hρ : ρ.Ok) (hb : Similar ρ env env') {a b : St P W K n nCam} (i : Fin n) (h : SimBy ρ a b) : Both (SimBy ρ) (refreshPatch cfg env a i) (refreshPatch cfg env' b i) := by
  unfold refreshPatch
  rw [← sim_valid h]
  by_cases hv : a.valid i = true
  · have hr := hb.repatch a.t b.t h.t _ _ (h.fsm.slots i) hv
    have hsc := hb.score _ _ ((h.fsm.slots i).patch hv)
    have hst := hρ.status _ _ (sim_ext h hv)
    have hage := hρ.age _ _ _ _ (sim_ext h hv) h.t
    simp only [← sim_camID h, ← hst, ← hage, ← hsc]
    split_ifs
    · revert hr
      generalize env.repatch a.t (a.fsm.slots i) = u
      generalize env'.repatch b.t (b.fsm.slots i) = v
      intro hr
      cases hr with
      | none => exact .some h
      | @some p q hpq =>
        simp only [← hb.score _ _ hpq]
        split_ifs
        · refine .some ?_
          have hval : (installPatch a i p).valid = a.valid := by
            funext j
            unfold installPatch St.valid
            by_cases hj : j = i
            · subst hj; simp
            · simp [Function.update_of_ne hj]
          have h1 := sim_setExt (live' := a.valid) h i { a.ext i with lastPatch := a.t } { b.ext i with lastPatch := b.t } a.log b.log h.log
            (by rw [hv]; exact hρ.setPatch _ _ _ _ (sim_ext h hv) h.t) fun _ _ => rfl
          unfold SimBy
          rw [hval]
          refine ⟨h1.w, h1.cov, ⟨fun j => ?_, h.fsm.maxIdx⟩, h1.ext, h1.meas, h1.id, h1.cam, h1.t, h1.imageCounter, h1.sinceImage, h1.sinceInertial, h1.log⟩
          unfold installPatch
          simp only
          by_cases hj : j = i
          · subst hj; simp only [Function.update_self]
            exact ⟨(h.fsm.slots j).valid, (h.fsm.slots j).idx, by simp only [(h.fsm.slots j).coord], fun _ => hpq⟩
          · simp only [Function.update_of_ne hj]; exact h.fsm.slots j
        · exact .some h
    · exact .some h
    · exact .none
  · simp only [hv]; exact .some h

lemma sim_trackedIn (hρ : ρ.Ok) {e e' : Ext nCam} (h : ρ.ext true e e') : Stat.trackedInSomeFrame e.stat = Stat.trackedInSomeFrame e'.stat := by
  unfold Stat.trackedInSomeFrame; rw [hρ.status _ _ h]

lemma sim_countTracked (hρ : ρ.Ok) {a b : St P W K n nCam} (h : SimBy ρ a b) : countTracked a = countTracked b := by
  unfold countTracked
  congr 1
  funext k i
  rw [← sim_valid h]
  split_ifs with hv <;> first | rfl | (exfalso; have := sim_trackedIn hρ (sim_ext h hv); simp_all)

lemma sim_removeBad (hρ : ρ.Ok) (hb : Similar ρ env env') {a b : St P W K n nCam} (h : SimBy ρ a b) : SimBy ρ (removeBad cfg env a) (removeBad cfg env' b) := by
  unfold removeBad
  refine foldl_rel ?_ _ _ _ h
  intro a b i h
  rw [← sim_valid h]
  by_cases hv : a.valid i = true
  · simp only [if_pos hv]
    rw [← hρ.good _ _ (sim_ext h hv)]
    split_ifs
    · exact sim_removeAt hρ hb h i
    · exact h
  · simp only [if_neg hv]; exact h

lemma sim_forceOne (hρ : ρ.Ok) (hb : Similar ρ env env') {a b : St P W K n nCam} (h : SimBy ρ a b) (factor : ℝ) (i : Fin n) :
    SimBy ρ (forceOne cfg env factor a i) (forceOne cfg env' factor b i) := by
  unfold forceOne
  rw [← sim_valid h]
  by_cases hv : a.valid i = true
  · simp only [if_pos hv]
    rw [← hρ.good _ _ (sim_ext h hv), ← sim_trackedIn hρ (sim_ext h hv)]
    split_ifs
    · exact sim_removeAt hρ hb h i
    · exact h
  · simp only [if_neg hv]; exact h

lemma sim_forced (hρ : ρ.Ok) (hb : Similar ρ env env') (required : ℤ) : ∀ (fuel : ℕ) (factor : ℝ) (k : ℕ) (a b : St P W K n nCam), SimBy ρ a b →
    Both (SimBy ρ) (forced cfg env required fuel factor k a) (forced cfg env' required fuel factor k b)
  | 0, factor, k, a, b, h => by
    unfold forced
    rw [← same_validCount h.fsm]
    by_cases h1 : (n : ℤ) - (a.fsm.getValidCount : ℤ) < required
    · simp only [if_pos h1]; exact .none
    · simp only [if_neg h1]; exact .some h
  | fuel + 1, factor, k, a, b, h => by
    unfold forced
    rw [← same_validCount h.fsm]
    split_ifs with h1 h2 h3
    · exact sim_forced hρ hb required fuel _ _ _ _ (sim_forceOne hρ hb h _ _)
    · exact sim_forced hρ hb required fuel _ _ _ _ (sim_forceOne hρ hb h _ _)
    · exact .none
    · exact .some h

lemma initNew_eq (med : ℝ) (c : Fin nCam) (a : St P W K n nCam) (i : Fin n) :
    initNew env med c a i = { a with
      ext := Function.update a.ext i (newExt c (a.ext i) a.t)
      w := (env.initFeature med { a with ext := Function.update a.ext i (newExt c (a.ext i) a.t) } i c).1
      cov := (env.initFeature med { a with ext := Function.update a.ext i (newExt c (a.ext i) a.t) } i c).2 } := rfl

lemma sim_initNew (hρ : ρ.Ok) (hb : Similar ρ env env') (med : ℝ) (c : Fin nCam) {live : Fin n → Bool} {a b : St P W K n nCam} (h : SimOn ρ live a b) (i : Fin n)
    (hv : a.valid i = true) : SimOn ρ (Function.update live i true) (initNew env med c a i) (initNew env' med c b i) := by
  rw [initNew_eq, initNew_eq]
  have h1 := sim_setExt (live' := Function.update live i true) h i (newExt c (a.ext i) a.t) (newExt c (b.ext i) b.t) a.log b.log h.log
    (by rw [Function.update_self]; exact hρ.fresh _ _ _ _ _ _ (h.ext i) h.t) fun j hj => Function.update_of_ne hj _ _
  obtain ⟨h2, h3⟩ := hb.initFeature med _ _ _ h1 i c hv
  exact ⟨h2, h3, h.fsm, h1.ext, h.meas, h.id, h.cam, h.t, h.imageCounter, h.sinceImage, h.sinceInertial, h.log⟩

lemma initNew_fsm (med : ℝ) (c : Fin nCam) (a : St P W K n nCam) (i : Fin n) : (initNew env med c a i).fsm = a.fsm := rfl

lemma sim_initAll (hρ : ρ.Ok) (hb : Similar ρ env env') (med : ℝ) (c : Fin nCam) : ∀ (l : List (Fin n)) (live : Fin n → Bool) (a b : St P W K n nCam),
    (∀ i ∈ l, a.valid i = true) → SimOn ρ live a b →
    SimOn ρ (fun i => live i || decide (i ∈ l)) (l.foldl (initNew env med c) a) (l.foldl (initNew env' med c) b) ∧ (l.foldl (initNew env med c) a).fsm = a.fsm
  | [], live, a, b, _, h => ⟨by simpa using h, rfl⟩
  | i :: l, live, a, b, hv, h => by
    have h1 := sim_initNew hρ hb med c h i (hv i (by simp))
    obtain ⟨h2, h3⟩ := sim_initAll hρ hb med c l _ (initNew env med c a i) (initNew env' med c b i) (fun j hj => hv j (by simp [hj])) h1
    refine ⟨?_, h3⟩
    have e : (fun j => Function.update live i true j || decide (j ∈ l)) = fun j => live j || decide (j ∈ i :: l) := by
      funext j
      by_cases hj : j = i
      · subst hj; simp
      · simp [Function.update_of_ne hj, hj]
    rw [e] at h2
    exact h2

lemma sim_detectCam (hρ : ρ.Ok) (hb : Similar ρ env env') (I : USet) (order : Finset (Fin n) → List (Fin n)) (ho : ∀ s, ∀ i ∈ order s, i ∈ s)
    (hall : (∀ s, ∀ i ∈ s, i ∈ order s) ∨ ∀ e e', ρ.ext false e e' → ρ.ext true e e') (med : Fin nCam → ℝ)
    (hg : (I.Lawful ∧ -1 ≤ cfg.minAbsST) ∨ ∀ a b c k, SimBy ρ a b → ρ.patch ((env.detect a c).patch k) ((env'.detect b c).patch k))
    {a b : St P W K n nCam} (h : SimBy ρ a b) (c : Fin nCam) :
    Both (SimBy ρ) (detectCam I order cfg env med a c) (detectCam I order cfg env' med b c) := by
  unfold detectCam
  simp only
  have hd := hb.detect a b h c
  rw [← same_validCount h.fsm]
  have hw := AddArgs.alike_add (I := I) (R := ρ.patch)
    (A := { env.detect a c with
      camID := c.val, maxAdded := budget n nCam a.fsm.getValidCount c.val, requireMax := false, minScore := cfg.minAbsST })
    (B := { env'.detect b c with
      camID := c.val, maxAdded := budget n nCam a.fsm.getValidCount c.val, requireMax := false, minScore := cfg.minAbsST })
    ⟨hd.nc, hd.cand, hd.inFrame, hd.shi, hd.patch, hd.view, hd.cam, hd.nb, hd.exponent, hd.penaltyDistance, hd.zeroPenalty⟩ ⟨rfl, rfl, rfl, rfl⟩
    (hg.imp id fun hg x => hg a b c x h) h.fsm
  revert hw
  generalize AddArgs.addBestCandidates _ I a.fsm = u
  generalize AddArgs.addBestCandidates _ I b.fsm = v
  intro hw
  cases hw with
  | none => exact .none
  | @some x y hw =>
    obtain ⟨fa, ids⟩ := x
    obtain ⟨fb, ids'⟩ := y
    obtain ⟨h1, h2, h3, h4⟩ := hw
    simp only at h1 h2 h3 h4
    subst h2
    refine .some ?_
    obtain ⟨h5, h6⟩ := sim_initAll hρ hb (med c) c (order ids) a.valid { a with fsm := fa } { b with fsm := fb } (fun i hi => h3 i (ho ids i hi))
      ⟨h.w, h.cov, h1, h.ext, h.meas, h.id, h.cam, h.t, h.imageCounter, h.sinceImage, h.sinceInertial, h.log⟩
    refine ⟨h5.w, h5.cov, h5.fsm, fun i => ?_, h5.meas, h5.id, h5.cam, h5.t, h5.imageCounter, h5.sinceImage, h5.sinceInertial, h5.log⟩
    have hi := h5.ext i
    have hval : St.valid ((order ids).foldl (initNew env (med c) c) { a with fsm := fa }) i = (fa.slots i).valid := by
      unfold St.valid; rw [h6]
    rw [hval]
    cases hv : (fa.slots i).valid with
    | false =>
      cases hl : (a.valid i || decide (i ∈ order ids)) with
      | true => rw [hl] at hi; exact hρ.drop _ _ hi
      | false => rw [hl] at hi; exact hi
    | true =>
      cases hl : (a.valid i || decide (i ∈ order ids)) with
      | true => rw [hl] at hi; exact hi
      | false =>
        rw [hl] at hi
        rcases hall with hall | hall
        · exfalso
          rw [Bool.or_eq_false_iff, decide_eq_false_iff_not] at hl
          rcases h4 i hv with h7 | h7
          · have : a.valid i = true := h7
            rw [hl.1] at this; simp at this
          · exact hl.2 (hall ids i h7)
        · exact hall _ _ hi

lemma sim_commonPost (hρ : ρ.Ok) (hb : Similar ρ env env') (I : USet) (order : Finset (Fin n) → List (Fin n)) (ho : ∀ s, ∀ i ∈ order s, i ∈ s)
    (hall : (∀ s, ∀ i ∈ s, i ∈ order s) ∨ ∀ e e', ρ.ext false e e' → ρ.ext true e e') (fuel : ℕ)
    (hg : (I.Lawful ∧ -1 ≤ cfg.minAbsST) ∨ ∀ a b c k, SimBy ρ a b → ρ.patch ((env.detect a c).patch k) ((env'.detect b c).patch k))
    {a b : St P W K n nCam} (h : SimBy ρ a b) : Both (SimBy ρ) (commonPost I order cfg env fuel a) (commonPost I order cfg env' fuel b) := by
  unfold commonPost refreshAll
  simp only [Option.bind_eq_bind, Option.pure_def]
  rw [sim_countTracked hρ h]
  refine (foldlM_rel (fun a b i h => sim_refresh hρ hb i h) _ _ _ h).bind fun a b h => ?_
  cases requiredFree n cfg (countTracked _) with
  | none => exact .none
  | some required =>
    simp only [Option.bind_some]
    refine (sim_forced hρ hb required fuel _ _ _ _ (sim_removeBad hρ hb h)).bind fun a b h => ?_
    have hd : Both (SimBy ρ) (detectAll I order cfg env a) (detectAll I order cfg env' b) := by
      unfold detectAll
      rw [← same_validCount h.fsm, hb.median a b h]
      split_ifs
      · exact foldlM_rel (fun a b c h => sim_detectCam hρ hb I order ho hall _ hg h c) _ _ _ h
      · exact .some h
    refine hd.bind fun a b h => .some ?_
    have hf := hb.finish _ _ _ _ h.t h.w
    unfold zeroVelocity
    have hc : (fun j => (a.fsm.slots j).coord) = fun j => (b.fsm.slots j).coord := funext fun j => (h.fsm.slots j).coord
    simp only [← h.sinceImage, ← h.sinceInertial, ← hc]
    obtain ⟨z1, z2, z3⟩ := hb.zvu _ _ _ _ (fun j => (a.fsm.slots j).coord) hf h.cov
    split_ifs
    · exact ⟨z1, z2, sim_coords h.fsm _ _ z3, h.ext, h.meas, h.id, h.cam, h.t, h.imageCounter, rfl, rfl, h.log⟩
    · exact ⟨hf, h.cov, h.fsm, h.ext, h.meas, h.id, h.cam, h.t, h.imageCounter, rfl, rfl, h.log⟩

lemma sim_imageUpdate (hρ : ρ.Ok) (hb : Similar ρ env env') (I : USet) (order : Finset (Fin n) → List (Fin n)) (ho : ∀ s, ∀ i ∈ order s, i ∈ s)
    (hall : (∀ s, ∀ i ∈ s, i ∈ order s) ∨ ∀ e e', ρ.ext false e e' → ρ.ext true e e') (fuel : ℕ)
    (hg : (I.Lawful ∧ -1 ≤ cfg.minAbsST) ∨ ∀ a b c k, SimBy ρ a b → ρ.patch ((env.detect a c).patch k) ((env'.detect b c).patch k))
    {a b : St P W K n nCam} (h : SimBy ρ a b) : Both (SimBy ρ) (imageUpdate I order cfg env fuel a) (imageUpdate I order cfg env' fuel b) := by
  unfold imageUpdate
  simp only [Option.bind_eq_bind]
  exact (sim_loop hρ hb _ _ _ (sim_commonPre (a := { a with log := [] }) (b := { b with log := [] }) hb
    ⟨h.w, h.cov, h.fsm, h.ext, h.meas, h.id, h.cam, h.t, h.imageCounter, h.sinceImage, h.sinceInertial, rfl⟩)).bind
      fun _ _ h => sim_commonPost hρ hb I order ho hall fuel hg h

lemma sim_predict {a b : St P W K n nCam} (h : SimBy ρ a b) (dt : ℝ) (ht : ρ.time (a.t + dt) (b.t + dt)) (motion : Bool) {w w' : W} {cov cov' : K} (hw : ρ.w w w')
    (hc : ρ.cov cov cov') (coord : Fin n → FC) : SimBy ρ (predict a dt motion w cov coord) (predict b dt motion w' cov' coord) :=
  ⟨hw, hc, sim_coords h.fsm _ _ rfl, h.ext, h.meas, h.id, h.cam, ht, h.imageCounter, by simp only [predict, h.sinceImage],
    by simp only [predict, h.sinceInertial], h.log⟩

end Img

end Rovio
