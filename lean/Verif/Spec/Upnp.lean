import Verif.Model.Upnp

/-!
# Specification of UPnP
-/

namespace OpenGV.Spec

open Matrix

/-- The sum of the squared distances between the transformed points and points on the viewing lines
with the given depths, one per correspondence. -/
def lineCost (obs : List UpnpObs) (R : Mat3) (t : Vec3) (depths : List ℝ) : ℝ :=
  (List.zipWith (fun o l => (R *ᵥ o.p + t - (o.v + l • o.f)) ⬝ᵥ (R *ᵥ o.p + t - (o.v + l • o.f)))
    obs depths).sum

/-- Each transformed point is on its viewing ray, at a depth that is not negative. -/
def OnRays (obs : List UpnpObs) (R : Mat3) (t : Vec3) : Prop :=
  ∀ o ∈ obs, ∃ l : ℝ, 0 ≤ l ∧ R *ᵥ o.p + t = o.v + l • o.f

/-- No infinitesimal motion with a rotation part keeps every transformed point on its line. -/
def Rigid (obs : List UpnpObs) (R : Mat3) : Prop :=
  ∀ w e : Vec3, (∀ o ∈ obs, crossProduct o.f (crossProduct w (R *ᵥ o.p) + e) = 0) → w = 0

end OpenGV.Spec
