import Verif.Model.FloatLike
import Verif.Proof.RowTables

/-! # Enclosures of doubles

`Aff c h θ` is a set of numbers depending on an integer `n` with `|n - c| ≤ h`: all `x` with
`|x - (a + b (n - c))| ≤ r`, in units of `1 / W`.  With `h = 0` it is an interval.  `θ` is the amplitude below which a
cosine term is replaced by plus or minus its amplitude.  The operations are written for evaluation by the kernel. -/

namespace Aff0

/-- `f n`, with `n` evaluated before -/
def forceN {β : Type} (n : ℕ) (f : ℕ → β) : β := Nat.casesOn n (f 0) (fun k => f (Nat.succ k))

theorem forceN_eq {β : Type} (n : ℕ) (f : ℕ → β) : forceN n f = f n := by cases n <;> rfl

/-- `f n`, with `n` evaluated before -/
def forceI {β : Type} (n : ℤ) (f : ℤ → β) : β :=
  Int.casesOn n (fun m => forceN m (fun m => f (.ofNat m))) (fun m => forceN m (fun m => f (.negSucc m)))

theorem forceI_eq {β : Type} (n : ℤ) (f : ℤ → β) : forceI n f = f n := by
  cases n <;> simp only [forceI, forceN_eq]

@[inherit_doc] local infixl:65 " +ₙ " => Nat.add
@[inherit_doc] local infixl:65 " -ₙ " => Nat.sub
@[inherit_doc] local infixl:70 " *ₙ " => Nat.mul
@[inherit_doc] local infixl:70 " /ₙ " => Nat.div
@[inherit_doc] local infixl:70 " %ₙ " => Nat.mod

/-- the unit: `W` stands for 1 -/
def W : ℕ := nat_lit 10000000000000000051

/-- a bit more than `W` -/
def WM : ℕ := nat_lit 10000000000001100051

/-- `W` as an integer -/
def WI : ℤ := Int.ofNat (nat_lit 10000000000000000051)

/-- `2 π · 10 ^ 9 W`, rounded down -/
def TP : ℕ := nat_lit 62831853071795865089695318331

/-- `TP` as an integer -/
def TPI : ℤ := Int.ofNat (nat_lit 62831853071795865089695318331)

/-- half of `TP` -/
def HP : ℕ := nat_lit 31415926535897932544847659165

/-- a thousand million -/
def GI : ℤ := Int.ofNat (nat_lit 1000000000)

/-- `64 W ^ 2` -/
def KW : ℕ := nat_lit 6400000000000000065280000000000000166464

/-- one step of Horner's rule for the cosine -/
def horner (s : ℕ) (n : ℕ) (u : ℕ) : ℕ := W -ₙ s *ₙ u /ₙ (n *ₙ KW)

/-- twice the square of `x`, less 1 -/
def dbl (x : ℕ) : ℕ := nat_lit 2 *ₙ (Nat.pow x (nat_lit 2)) /ₙ W

/-- `2 (cos (z / 2)) ^ 2` for `s = z ^ 2`, from a polynomial for `cos (z / 8)` -/
def cosC (s : ℕ) : ℕ :=
  dbl (dbl (dbl (horner s (nat_lit 2) (horner s (nat_lit 12) (horner s (nat_lit 30) (horner s (nat_lit 56)
    (horner s (nat_lit 90) (horner s (nat_lit 132) (horner s (nat_lit 182) W))))))) -ₙ W) -ₙ W)

/-- one less the cosine of `y / (10 ^ 9 W)` for `y < TP`, in units of `1 / W` -/
def cosY (y : ℕ) : ℕ :=
  forceN y fun y =>
  forceN (Nat.pow (((y -ₙ HP) +ₙ (HP -ₙ y)) /ₙ nat_lit 1000000000) (nat_lit 2)) fun s => cosC s

/-- cosine of `x / W`, in units of `1 / W` -/
def cosA (x : ℤ) : ℤ := forceN (cosY (x * GI % TPI).toNat) fun c => Int.subNatNat W c

/-- the sum over rows of `XL0`: positive part, negative part, sum of the amplitudes, and of the amplitudes of the rows
that are not constant -/
def eLoop {β : Type} (T : ℕ) (k : ℕ → ℕ → ℕ → ℕ → β) (rows : List ERow) : ℕ → ℕ → ℕ → ℕ → β :=
  List.rec (motive := fun _ => ℕ → ℕ → ℕ → ℕ → β) k
    (fun row _ ih P N S G => ERow.casesOn row fun ap an g p q =>
      forceN (cosY ((p +ₙ q *ₙ T) %ₙ TP)) fun c =>
      forceN (P +ₙ (ap *ₙ W +ₙ an *ₙ c)) fun P => forceN (N +ₙ (ap *ₙ c +ₙ an *ₙ W)) fun N =>
      forceN (S +ₙ (ap +ₙ an)) fun S => forceN (G +ₙ g) fun G => ih P N S G) rows

/-- the sum over rows of `XL1` -/
def mLoop {β : Type} (T T2 T3 T4 : ℕ) (k : ℕ → ℕ → ℕ → β) (rows : List MRow) : ℕ → ℕ → ℕ → β :=
  List.rec (motive := fun _ => ℕ → ℕ → ℕ → β) k
    (fun row _ ih P N S => MRow.casesOn row fun ap an p q r s u =>
      forceN (cosY ((p +ₙ q *ₙ T +ₙ r *ₙ T2 +ₙ s *ₙ T3 +ₙ u *ₙ T4) %ₙ TP)) fun c =>
      forceN (P +ₙ (ap *ₙ W +ₙ an *ₙ c)) fun P => forceN (N +ₙ (ap *ₙ c +ₙ an *ₙ W)) fun N =>
      forceN (S +ₙ (ap +ₙ an)) fun S => ih P N S) rows

/-- the rows of group `i` that `eGroup n i` reads; `false` for numbers that are not used -/
def eRows (n : ℤ) (i : ℕ) : List ERow × Bool :=
  match n, i with
  | -1, 0 => (XL0r_0, true) | -1, 1 => (XL0r_1, true) | -1, 2 => (XL0r_2, true)
  | -1, 3 => (XL0r_3, true) | -1, 4 => (XL0r_4, true) | -1, 5 => (XL0r_5, true)
  | 3, 0 => (XL0r_0.take 3, true) | 3, 1 => (XL0r_1.take 3, true) | 3, 2 => (XL0r_2.take 2, true)
  | 3, 3 => (XL0r_3.take 1, true) | 3, 4 => (XL0r_4.take 1, true) | 3, 5 => (XL0r_5.take 1, true)
  | 8, 0 => (XL0r_0.take 8, true) | 8, 1 => (XL0r_1.take 6, true) | 8, 2 => (XL0r_2.take 4, true)
  | 8, 3 => (XL0r_3.take 2, true) | 8, 4 => (XL0r_4.take 2, true) | 8, 5 => (XL0r_5.take 2, true)
  | 10, 0 => (XL0r_0.take 10, true) | 10, 1 => (XL0r_1.take 7, true) | 10, 2 => (XL0r_2.take 5, true)
  | 10, 3 => (XL0r_3.take 2, true) | 10, 4 => (XL0r_4.take 2, true) | 10, 5 => (XL0r_5.take 2, true)
  | 60, 0 => (XL0r_0.take 60, true) | 60, 1 => (XL0r_1.take 38, true) | 60, 2 => (XL0r_2.take 21, true)
  | 60, 3 => (XL0r_3.take 4, true) | 60, 4 => (XL0r_4.take 3, true) | 60, 5 => (XL0r_5.take 3, true)
  | _, _ => ([], false)

/-- the rows of `XL1 i` that `mGroup n i` reads; `false` for numbers that are not used -/
def mRows (n : ℤ) (i : ℕ) : List MRow × Bool :=
  match n, i with
  | -1, 0 => (XL1r_0, true) | -1, 1 => (XL1r_1, true) | -1, 2 => (XL1r_2, true) | -1, 3 => (XL1r_3, true)
  | 3, 0 => (XL1r_0.take 3, true) | 3, 1 => (XL1r_1.take 2, true) | 3, 2 => (XL1r_2.take 2, true) | 3, 3 => (XL1r_3.take 1, true)
  | 20, 0 => (XL1r_0.take 20, true) | 20, 1 => (XL1r_1.take 8, true) | 20, 2 => (XL1r_2.take 3, true) | 20, 3 => (XL1r_3.take 2, true)
  | _, _ => ([], false)

end Aff0

structure Aff (c : ℤ) (h : ℕ) (θ : ℕ) where
  a : ℤ
  b : ℤ
  r : ℕ
  ok : Bool

namespace Aff
open Aff0
variable {c : ℤ} {h : ℕ} {θ : ℕ}

@[inherit_doc] local infixl:65 " +ₙ " => Nat.add
@[inherit_doc] local infixl:65 " -ₙ " => Nat.sub
@[inherit_doc] local infixl:70 " *ₙ " => Nat.mul
@[inherit_doc] local infixl:70 " /ₙ " => Nat.div

/-- all fields evaluated; `b` does not matter when `h = 0` -/
def mk' (a b : ℤ) (r : ℕ) (ok : Bool) : Aff c h θ :=
  forceI a fun a => forceI (bif Nat.beq h (nat_lit 0) then 0 else b) fun b => forceN r fun r =>
    bif ok then ⟨a, b, r, true⟩ else ⟨a, b, r, false⟩

/-- distance of the values from `a` -/
def spread (f : Aff c h θ) : ℕ := f.b.natAbs *ₙ h +ₙ f.r

/-- bound for the values -/
def mag (f : Aff c h θ) : ℕ := f.a.natAbs +ₙ (f.b.natAbs *ₙ h +ₙ f.r)

/-- the values of `a + b (n - c)` plus or minus `r`, rounded to doubles -/
def round (a b : ℤ) (r : ℕ) (ok : Bool) : Aff c h θ :=
  forceI a fun a => forceI (bif Nat.beq h (nat_lit 0) then 0 else b) fun b => forceN r fun r =>
    forceN (r +ₙ (a.natAbs +ₙ (b.natAbs *ₙ h +ₙ r)) /ₙ nat_lit 9007199254740992 +ₙ nat_lit 1) fun r =>
    bif ok then ⟨a, b, r, true⟩ else ⟨a, b, r, false⟩

def add (f g : Aff c h θ) : Aff c h θ := round (f.a + g.a) (f.b + g.b) (f.r +ₙ g.r) (f.ok && g.ok)
def sub (f g : Aff c h θ) : Aff c h θ := round (f.a - g.a) (f.b - g.b) (f.r +ₙ g.r) (f.ok && g.ok)

/-- product with an interval -/
def mulBall (f : Aff c h θ) (m : ℤ) (ρ : ℕ) (ok : Bool) : Aff c h θ :=
  round (f.a * m / WI) (f.b * m / WI) ((f.r *ₙ m.natAbs +ₙ mag f *ₙ ρ) /ₙ W +ₙ (nat_lit 2 +ₙ h)) (f.ok && ok)

def mul (f g : Aff c h θ) : Aff c h θ :=
  bif Nat.beq g.b.natAbs (nat_lit 0) then mulBall f g.a g.r g.ok
  else bif Nat.beq f.b.natAbs (nat_lit 0) then mulBall g f.a f.r f.ok
  else round (f.a * g.a / WI) ((f.a * g.b + f.b * g.a) / WI)
    ((f.b.natAbs *ₙ g.b.natAbs *ₙ (h *ₙ h) +ₙ f.r *ₙ mag g +ₙ (f.a.natAbs +ₙ f.b.natAbs *ₙ h) *ₙ g.r) /ₙ W +ₙ (nat_lit 2 +ₙ h)) (f.ok && g.ok)

def div (f g : Aff c h θ) : Aff c h θ :=
  forceN g.a.natAbs fun d => forceN (spread g) fun ρ =>
    round (f.a * WI / g.a) (f.b * WI / g.a)
      (f.r *ₙ W /ₙ d +ₙ mag f *ₙ ρ *ₙ W /ₙ (d *ₙ (d -ₙ ρ)) +ₙ (nat_lit 4 +ₙ h))
      (f.ok && g.ok && Nat.ble (ρ +ₙ nat_lit 1) d)

def lit (m : ℤ) (e : ℕ) : Aff c h θ :=
  bif Nat.beq e (nat_lit 0) && Nat.ble m.natAbs (nat_lit 9007199254740992) then mk' (m * WI) 0 (nat_lit 0) true
  else round (m * WI / Int.ofNat (Nat.pow (nat_lit 10) e)) 0 (nat_lit 1) true

/-- `π / 2` -/
def QP : ℤ := 15707963267948966272

/-- with the slope when `h` is not 0 -/
def cos (f : Aff c h θ) : Aff c h θ :=
  forceI (bif Nat.beq h (nat_lit 0) then 0 else (f.b * GI + Int.ofNat HP) / TPI) fun m =>
  forceI (bif Nat.beq h (nat_lit 0) then 0 else (f.b * GI - m * TPI) / GI) fun b =>
  forceN (b.natAbs *ₙ h +ₙ f.r +ₙ (m.natAbs +ₙ nat_lit 1) *ₙ h) fun ρ =>
    bif f.ok && Nat.ble (ρ +ₙ nat_lit 1) W && Nat.ble f.a.natAbs (nat_lit 100000000000000000000000000)
    then bif Nat.ble (nat_lit 1) h && Nat.ble (f.a - QP).natAbs (nat_lit 100000000000000000000000000)
      then mk' (cosA f.a) (-(cosA (f.a - QP) * b / WI))
        (f.r +ₙ (m.natAbs +ₙ nat_lit 2) *ₙ h +ₙ Nat.pow (b.natAbs *ₙ h) (nat_lit 2) *ₙ nat_lit 3 /ₙ (nat_lit 4 *ₙ W) +ₙ nat_lit 700000) true
      else mk' (cosA f.a) 0 (ρ +ₙ nat_lit 300000) true
    else ⟨0, 0, W, true⟩

def sin (f : Aff c h θ) : Aff c h θ := cos ⟨f.a - QP, f.b, f.r +ₙ nat_lit 1, f.ok⟩

def sel (p q x y : Aff c h θ) : Aff c h θ :=
  forceI (q.a - p.a) fun d => forceN (spread p +ₙ spread q) fun s =>
    bif Nat.ble (s +ₙ nat_lit 1) d.toNat then mk' x.a x.b x.r (x.ok && p.ok && q.ok)
    else bif Nat.ble s (-d).toNat then mk' y.a y.b y.r (y.ok && p.ok && q.ok)
    else forceN ((y.a - x.a).natAbs +ₙ (y.b - x.b).natAbs *ₙ h +ₙ y.r) fun r =>
      bif Nat.ble x.r r then mk' x.a x.b r (x.ok && y.ok) else mk' x.a x.b x.r (x.ok && y.ok)

def frac (f : Aff c h θ) : Aff c h θ :=
  forceN (spread f) fun s =>
  forceI ((f.a - Int.ofNat s) / WI) fun m =>
    bif Nat.beq ((f.a + Int.ofNat s) / WI - m).natAbs (nat_lit 0) then round (f.a - m * WI) f.b f.r f.ok
    else ⟨5000000000000000025, 0, nat_lit 5000000000000010000, true⟩

/-- `k f`, with `f` evaluated before -/
def forceA {β : Type} (f : Aff c h θ) (k : Aff c h θ → β) : β := Aff.casesOn f fun a b r ok => k ⟨a, b, r, ok⟩

/-- a sum over rows of `XL0`, term by term; amplitudes below `θ / d` only count as plus or minus their value -/
def eBlock (d : ℕ) (t : Aff c h θ) (rows : List (ℤ × ℤ × ℤ)) : Aff c h θ → Aff c h θ :=
  List.rec (motive := fun _ => Aff c h θ → Aff c h θ) (fun acc => acc)
    (fun row _ ih acc => forceA (add acc (bif Nat.ble θ (row.1.natAbs *ₙ d)
      then mul (lit row.1 0) (cos (add (lit row.2.1 9) (mul t (lit row.2.2 9))))
      else ⟨0, 0, row.1.natAbs *ₙ (W +ₙ nat_lit 2000), true⟩)) ih) rows

/-- group sums of `eLon` -/
def eGroup (n : ℤ) (i : ℕ) (t : Aff c h θ) : Aff c h θ :=
  bif Nat.beq h (nat_lit 0) then
    eLoop (t.a % TPI).toNat (fun P N S G =>
      mk' (Int.subNatNat P N) 0 (G *ₙ (nat_lit 244288 *ₙ t.r +ₙ nat_lit 100000000000) +ₙ S *ₙ nat_lit 1300000)
        ((eRows n i).2 && t.ok && Nat.ble (mag t) (nat_lit 20 *ₙ W))) (eRows n i).1 (nat_lit 0) (nat_lit 0) (nat_lit 0) (nat_lit 0)
  else bif (eRows n i).2 then eBlock (Nat.pow (nat_lit 10) i) t ((ShouXing.XL0 i).take (eRows n i).1.length) ⟨0, 0, 0, true⟩
  else ⟨0, 0, 0, false⟩

/-- group sums of `mLon` -/
def mGroup (n : ℤ) (i : ℕ) (t t2 t3 t4 : Aff c h θ) : Aff c h θ :=
  bif Nat.beq h (nat_lit 0) then
    mLoop (t.a % TPI).toNat (t2.a % TPI).toNat (t3.a % TPI).toNat (t4.a % TPI).toNat (fun P N S =>
      mk' (Int.subNatNat P N / Int.ofNat (nat_lit 10000000)) 0
        (S *ₙ (nat_lit 57396 *ₙ t.r +ₙ nat_lit 9 *ₙ t2.r +ₙ nat_lit 126 *ₙ t3.r +ₙ nat_lit 2 *ₙ t4.r +ₙ nat_lit 200001000000) /ₙ nat_lit 10000000 +ₙ
          nat_lit 2)
        ((mRows n i).2 && t.ok && t2.ok && t3.ok && t4.ok && Nat.ble (mag t) (nat_lit 100 *ₙ W) &&
          Nat.ble (mag t2) (nat_lit 100 *ₙ W) && Nat.ble (mag t3) (nat_lit 100 *ₙ W) && Nat.ble (mag t4) (nat_lit 100 *ₙ W)))
      (mRows n i).1 (nat_lit 0) (nat_lit 0) (nat_lit 0)
  else mk' 0 0 (((mRows n i).1.map fun r => r.ap +ₙ r.an).sum *ₙ WM /ₙ nat_lit 10000000 +ₙ nat_lit 1) (mRows n i).2

instance : FloatLike (Aff c h θ) where
  add := add
  sub := sub
  mul := mul
  div := div
  lit := lit
  sin := sin
  cos := cos
  sel := sel
  frac := frac
  eGroup := eGroup
  mGroup := mGroup

/-- the integer `p + q n` -/
def var (p q : ℤ) : Aff c h θ := ⟨(p + q * c) * WI, q * WI, 0, true⟩

end Aff
