import Verif.Spec.Contact
import Verif.Spec.EndToEnd
import Verif.Spec.ForceTasks

/-!
# Where the contact forces of a robot act

Convex combinations of points, and the centre of pressure of a wrench on a plane.
-/

namespace Tsid.Spec

open Finset

variable {K : Type} [Field K]

/-- `q` is a mean of the points of the list with weights that are not negative: it lies in their convex hull. -/
def InHull [LE K] (l : List (V3 K)) (q : V3 K) : Prop :=
  ∃ w : List K, w.length = l.length ∧ (∀ a ∈ w, 0 ≤ a) ∧ w.sum = 1 ∧
    ∀ i, i < 3 → q.get i = (List.zipWith (fun a p => a * p.get i) w l).sum

/-- The centre of pressure, on the plane of the points `q` with `n · q = h`, of a wrench with force `F` and moment `M`
about the origin: a point of the plane about which the moment has no component along the plane. -/
def IsCop (n : V3 K) (h : K) (F M q : V3 K) : Prop := n.dot q = h ∧ n.cross (M - q.cross F) = 0

/-- The force that a generator matrix makes of a vector of point forces. -/
def netForce (G : Mat K) (f : Nat → K) : V3 K := ⟨row G f 0, row G f 1, row G f 2⟩

/-- The moment about the origin that a generator matrix makes of a vector of point forces. -/
def netMoment (G : Mat K) (f : Nat → K) : V3 K := ⟨row G f 3, row G f 4, row G f 5⟩

/-- The four points of a surface contact. -/
def corners (points : Nat → V3 K) : List (V3 K) := [points 0, points 1, points 2, points 3]

/-- The points of the contacts in the world. -/
def worldPoints (cs : List (CopContact K)) : List (V3 K) :=
  cs.flatMap fun c => (List.range (nPoints c.contact.kind)).map fun j => c.pose.actPoint (c.contact.points j)

end Tsid.Spec
