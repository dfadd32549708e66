import Verif.Spec.Version

/-!
# The documented styles of versions
-/

namespace CrowdDynamics.Spec

open CrowdDynamics

/-- `pep440-pre`: `TAG[.post.devDISTANCE]`, and `0.post.devDISTANCE` without tags. -/
def Checkout.pre (c : Checkout) : Text :=
  match c.tag with
  | some (t, 0) => t
  | some (t, k) => t ++ ".post.dev".toList ++ numeral k
  | none => "0.post.dev".toList ++ numeral c.commits

/-- `pep440-old`: `TAG[.postDISTANCE[.dev0]]`, and `0.postDISTANCE[.dev0]` without tags; `.dev0` means
changes. -/
def Checkout.old (c : Checkout) : Text :=
  let dirty := if c.dirty then ".dev0".toList else []
  match c.tag with
  | some (t, k) =>
    if k = 0 ∧ c.dirty = false then t else t ++ ".post".toList ++ numeral k ++ dirty
  | none => "0.post".toList ++ numeral c.commits ++ dirty

/-- `pep440-post`: `TAG[.postDISTANCE[.dev0]+gHEX]`, and `0.postDISTANCE[.dev0]` without tags; `.dev0`
means changes. -/
def Checkout.post (c : Checkout) : Text :=
  let dirty := if c.dirty then ".dev0".toList else []
  match c.tag with
  | some (t, k) =>
    if k = 0 ∧ c.dirty = false then t
    else t ++ ".post".toList ++ numeral k ++ dirty ++ "+g".toList ++ c.short
  | none => "0.post".toList ++ numeral c.commits ++ dirty

end CrowdDynamics.Spec
