import Verif.Model.RovioScene
import Verif.Spec.Scene3D
import Verif.Spec.Draw

/-!
# Specification vocabulary: what the 3D view has to show of an estimate (C92)
-/

namespace Rovio.RovioScene.Spec

open Rovio.Scene3D Rovio.Scene3D.Spec Rovio.Distance Rovio.Draw.Spec

variable {n nCam nPose : ℕ}

/-- What the coordinates of a feature tell through their public functions: the bearing (which is known), whether the patch's deformation in
bearing coordinates is available, and that deformation. -/
def Tells (c : FC) (nor : Nor) (has : Bool) (warp : M2) : Prop :=
  c.comNor.map Prod.snd = some true ∧ c.getNor.map Prod.snd = some nor ∧ c.comWarpNor.map Prod.snd = some has ∧
    (has = true → c.getWarpNor.map Prod.snd = some warp)

/-- What is known of the features of a filter state. -/
structure Sight (n : ℕ) where
  nor : Fin n → Nor
  has : Fin n → Bool
  warp : Fin n → M2

/-- The filter state tells this. -/
def Sees (S : Snapshot n nCam nPose) (g : Sight n) : Prop :=
  ∀ i, S.valid i = true → Tells (S.state.fea i).c (g.nor i) (g.has i) (g.warp i)

/-- A filter state that can be drawn: features in use have a camera, a known bearing and patches of grey values. -/
def Ready (p L : ℕ) (S : Snapshot n nCam nPose) : Prop :=
  ∀ i, S.valid i = true → (S.state.fea i).c.cam.isSome = true ∧ (S.state.fea i).c.comNor.map Prod.snd = some true ∧ Grey p L (S.mlp i)

/-- Feature `i` is to be seen with camera `c`: it is in use, belongs to the camera and its deformation is available. -/
def Drawn (S : Snapshot n nCam nPose) (g : Sight n) (c : Fin nCam) (i : Fin n) : Prop :=
  S.valid i = true ∧ (S.state.fea i).c.camID = c.val ∧ g.has i = true

/-- Place in the world of what camera `c` has at position `P` of its frame. -/
def world (S : Snapshot n nCam nPose) (c : Fin nCam) (P : V3) : V3 := worldPoint (S.state.WrWC c) (S.state.qCW c) P

/-- The estimated distance of feature `i`. -/
noncomputable def dist (S : Snapshot n nCam nPose) (i : Fin n) : ℝ := getDistance (S.state.fea i).d

/-- A corner of the patch of feature `i` in the world; `sx`, `sy` are `±1`.  The patch has `p·2^(L-1)` pixels per side; a corner is at the
bearing displaced by the deformed offset, at the feature's distance. -/
noncomputable def cornerAt (p L : ℕ) (S : Snapshot n nCam nPose) (g : Sight n) (c : Fin nCam) (i : Fin n) (sx sy : ℝ) : V3 :=
  let half : ℝ := p * (2 : ℝ) ^ ((L : ℤ) - 1) / 2
  world S c (dist S i • ((g.nor i).boxPlus ((g.warp i).mulVec ⟨sx * half, sy * half⟩)).vec)

/-- Green for features that are tracked in some camera, red for others within some camera's view, grey for the rest. -/
def ColorOf (S : Snapshot n nCam nPose) (i : Fin n) (col : V4) : Prop :=
  ((∃ c, (S.stat i).status c = .tracked) → col = ⟨0, 1, 0, 1⟩) ∧
  ((∀ c, (S.stat i).status c ≠ .tracked) → (∃ c, (S.stat i).status c = .failedAlignment ∨ (S.stat i).status c = .failedTracking) → col = ⟨1, 0, 0, 1⟩) ∧
  ((∀ c, (S.stat i).status c ≠ .tracked ∧ (S.stat i).status c ≠ .failedAlignment ∧ (S.stat i).status c ≠ .failedTracking) →
    col = ⟨1 / 2, 1 / 2, 1 / 2, 1⟩)

/-- The four sides of the outline of a patch in colour `col`. -/
noncomputable def outline (p L : ℕ) (S : Snapshot n nCam nPose) (g : Sight n) (col : V4) (c : Fin nCam) (i : Fin n) :
    List ((V3 × V4) × (V3 × V4)) :=
  let P (sx sy : ℝ) : V3 × V4 := (cornerAt p L S g c i sx sy, col)
  [(P (-1) (-1), P 1 (-1)), (P 1 (-1), P 1 1), (P 1 1, P (-1) 1), (P (-1) 1, P (-1) (-1))]

/-- The depth segment: along the bearing between two distances. -/
noncomputable def ray (S : Snapshot n nCam nPose) (g : Sight n) (col : V4) (c : Fin nCam) (i : Fin n) : List ((V3 × V4) × (V3 × V4)) :=
  let r := depthRange (S.state.fea i).d (S.var i)
  [((world S c (r.1 • (g.nor i).vec), col), (world S c (r.2 • (g.nor i).vec), col))]

open Classical in
/-- `f c i` for the features to be seen with camera `c`, in their order. -/
noncomputable def forDrawn {α : Type} (S : Snapshot n nCam nPose) (g : Sight n) (c : Fin nCam) (f : Fin n → List α) : List α :=
  (List.finRange n).flatMap fun i => if Drawn S g c i then f i else []

/-- The segments drawn by an object, in the world, with the colours of their ends. -/
def drawnSegments (o : Obj) (l : List ((V3 × V4) × (V3 × V4))) : Prop :=
  o.draw = true ∧ o.mode = .lines ∧ o.useTexture = false ∧
    ∃ vs, o.elements = some vs ∧ segments (vs.map fun v => (worldPoint o.pos o.q v.pos, v.color)) = l

/-- The three axes of a frame, one metre long, in brightness `b`. -/
def axes (r : V3) (q : Quat) (b : ℝ) : List ((V3 × V4) × (V3 × V4)) :=
  [((r, ⟨b, 0, 0, 1⟩), (worldPoint r q ⟨1, 0, 0⟩, ⟨b, 0, 0, 1⟩)), ((r, ⟨0, b, 0, 1⟩), (worldPoint r q ⟨0, 1, 0⟩, ⟨0, b, 0, 1⟩)),
   ((r, ⟨0, 0, b, 1⟩), (worldPoint r q ⟨0, 0, 1⟩, ⟨0, 0, b, 1⟩))]

/-- The picture of a feature: two triangles that make up the quadrilateral of its corners, with the corners of the texture at the corners of
the patch, and a texture that shows the patch. -/
def PatchShown (p L : ℕ) (S : Snapshot n nCam nPose) (g : Sight n) (c : Fin nCam) (i : Fin n) (o : Obj) : Prop :=
  o.mode = .triangles ∧ o.cull = false ∧ o.useTexture = true ∧
  (∃ vs, o.elements = some vs ∧ triangles (vs.map fun v => (worldPoint o.pos o.q v.pos, (v.color.x, v.color.y))) =
    [((cornerAt p L S g c i (-1) (-1), (0, 0)), (cornerAt p L S g c i 1 (-1), (1, 0)), (cornerAt p L S g c i (-1) 1, (0, 1))),
     ((cornerAt p L S g c i 1 1, (1, 1)), (cornerAt p L S g c i 1 (-1), (1, 0)), (cornerAt p L S g c i (-1) 1, (0, 1)))]) ∧
  ∃ t m m', o.tex = some t ∧ t.cols = p * 2 ^ (L - 1) ∧ t.rows = p * 2 ^ (L - 1) ∧ m.ch = 1 ∧ m.rows = p * 2 ^ (L - 1) ∧ m.cols = p * 2 ^ (L - 1) ∧
    Shows p L m m' (S.mlp i) 0 0 ∧ ∀ y < p * 2 ^ (L - 1), ∀ x < p * 2 ^ (L - 1), t.texel y x = some (at' m' y x 0)

/-- The display shows the filter state. -/
structure Depicts (p L : ℕ) (S : Snapshot n nCam nPose) (g : Sight n) (V : Display n nCam) : Prop where
  sensor : ∀ c, drawnSegments (V.sensor c) (axes (S.state.WrWC c) (S.state.qCW c) 1)
  lines : ∀ col : Fin n → V4, (∀ i, ColorOf S i (col i)) → ∀ c,
    drawnSegments (V.lines c) (forDrawn S g c fun i => outline p L S g (col i) c i)
  depth : ∀ col : Fin n → V4, (∀ i, ColorOf S i (col i)) → ∀ c, drawnSegments (V.depth c) (forDrawn S g c fun i => ray S g (col i) c i)
  groundtruth : V.groundtruth.draw = S.plotPoseMeas ∧
    (S.plotPoseMeas = true → drawnSegments V.groundtruth (axes S.state.aux.poseMeasLin S.state.aux.poseMeasRot 0.6))
  patches : ∀ i, ((V.patches i).draw = true ↔ ∃ c, Drawn S g c i) ∧ ∀ c, Drawn S g c i → PatchShown p L S g c i (V.patches i)

end Rovio.RovioScene.Spec
