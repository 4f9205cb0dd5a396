import Verif.Model.Double

/-! What is said about floats. -/

namespace Verif

/-- `m` is the integer nearest to `r`, the even one if there are two. -/
def NearestEven (r : ℚ) (m : Int) : Prop := |(m : ℚ) - r| ≤ 1 / 2 ∧ (|(m : ℚ) - r| = 1 / 2 → m % 2 = 0)

/-- The numbers are the same after rounding to `k` digits behind the point. -/
def SameDecimals (k : Nat) (r s : ℚ) : Prop := ∃ m, NearestEven (r * 10 ^ k) m ∧ NearestEven (s * 10 ^ k) m

/-- A point with finite coordinates, and the coordinates. -/
def Vec.Is (p : Vec Double) (q : Vec ℚ) : Prop := p.x.val? = some q.x ∧ p.y.val? = some q.y ∧ p.z.val? = some q.z

/-- Every coordinate differs by no more than `eps`. -/
def Vec.Near (eps : ℚ) (p q : Vec ℚ) : Prop := |p.x - q.x| ≤ eps ∧ |p.y - q.y| ≤ eps ∧ |p.z - q.z| ≤ eps

end Verif
