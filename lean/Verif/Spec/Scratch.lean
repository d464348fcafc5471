import Verif.Model.ImgPixel

/-!
# What it means for patches to agree in everything that has been written to them

Temporary patches and newly allocated ones contain, before they are filled, whatever was in memory.
-/

namespace Rovio.Spec

/-- Two patches with border agree: pixels, border and, once computed, the gradient data.  (`p` is the edge length; array elements beyond it do not
exist.) -/
structure SamePatch (p : ℕ) (a b : Patch) : Prop where
  patch : ∀ k < p * p, a.patch k = b.patch k
  border : ∀ k < (p + 2) * (p + 2), a.border k = b.border k
  validGradient : a.validGradient = b.validGradient
  dx : a.validGradient = true → ∀ k < p * p, a.dx k = b.dx k
  dy : a.validGradient = true → ∀ k < p * p, a.dy k = b.dy k
  H : a.validGradient = true → a.H = b.H
  s : a.validGradient = true → a.s = b.s
  e0 : a.validGradient = true → a.e0 = b.e0
  e1 : a.validGradient = true → a.e1 = b.e1

/-- Two multilevel patches agree on the levels up to `l` and in the overall score. -/
structure SameMLP (p l : ℕ) (a b : MLP) : Prop where
  valid : ∀ i ≤ l, a.isValidPatch i = b.isValidPatch i
  patches : ∀ i ≤ l, SamePatch p (a.patches i) (b.patches i)
  H : a.H = b.H
  e0 : a.e0 = b.e0
  e1 : a.e1 = b.e1
  s : a.s = b.s

end Rovio.Spec
