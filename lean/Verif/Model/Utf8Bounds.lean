import Verif.Model.Utf8Write
/-! # Model of include/u5e/utf8_bounds.hpp -/
namespace U5e

/-- utf8_bounds.hpp:40-48, the loop of `check`. The first argument is `max_walkback - walkback`
(the number of rounds left), so `walkback = 6 - rounds`. -/
def checkLoop (m : Mem) (b : Nat) : Nat → Nat → Res Bool
  | 0, _ => pure true
  | rounds + 1, e =>
    if e = b then pure true
    else do
      let octet ← rd m e
      if isStart octet && decide (cpSize octet > 6 - (rounds + 1)) then pure false
      else do
        let e' ← retreat e
        checkLoop m b rounds e'

/-- utf8_bounds.hpp:32-51 `utf8_bounds::check(begin, end)`. -/
def boundsCheck (m : Mem) (b e : Nat) : Res Bool := do
  let octet ← rd m b
  if isCont octet then pure false
  else checkLoop m b 6 e

/-- utf8_bounds.hpp:59-63, the first loop of `enforce`: replaces leading continuation octets by '?'.
Returns memory, the advanced `begin`, and whether nothing was replaced. Fuel: the loop runs off the
buffer (`ub`) after at most `m.length - b` rounds, so `enforce` passes a sufficient amount. -/
def enforceLead : Nat → Mem → Nat → Bool → Res (Mem × Nat × Bool)
  | 0, _, _, _ => .tmo
  | fuel + 1, m, b, ret => do
    let octet ← rd m b
    if isCont octet then do
      let m' ← wr m b 0x3F
      let b' ← adv m' b 1
      enforceLead fuel m' b' false
    else pure (m, b, ret)

/-- utf8_bounds.hpp:68-77, the second loop of `enforce`; first argument as in `checkLoop`. -/
def enforceTail : Nat → Mem → Nat → Nat → Bool → Res (Mem × Bool)
  | 0, m, _, _, ret => pure (m, ret)
  | rounds + 1, m, b, e, ret =>
    if e = b then pure (m, ret)
    else do
      let octet ← rd m e
      if isStart octet && decide (cpSize octet > 6 - (rounds + 1)) then do
        let m' ← wr m e 0x3F
        let e' ← retreat e
        enforceTail rounds m' b e' false
      else do
        let e' ← retreat e
        enforceTail rounds m b e' ret

/-- utf8_bounds.hpp:57-79 `utf8_bounds::enforce(begin, end)`: new memory and return value. -/
def boundsEnforce (m : Mem) (b e : Nat) : Res (Mem × Bool) := do
  let (m1, b1, ret) ← enforceLead (m.length + 1) m b true
  enforceTail 6 m1 b1 e ret

end U5e
