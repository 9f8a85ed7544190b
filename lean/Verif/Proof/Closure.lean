import Verif.Proof.Rows

/-! # The enclosures are sound: the functions of `util/ShouXingUtil.py`

Each function, evaluated on enclosures, encloses its value on the doubles. -/

open ShouXing FloatLike

/-- the enclosure `f` holds the double `x` -/
def Encl {c : ℤ} {h θ : ℕ} {M : Libm} (n : ℤ) (f : Aff c h θ) (x : Fl M) : Prop := f.Mem n x.v

namespace Encl
variable {c : ℤ} {h θ : ℕ} {n : ℤ} {M : Libm}

section ops
variable (hn : |n - c| ≤ h) {f g p q : Aff c h θ} {x y u v : Fl M}
include hn

theorem add (hf : Encl n f x) (hg : Encl n g y) : Encl n (f + g) (x + y) := Aff.add_mem hn hf hg
theorem sub (hf : Encl n f x) (hg : Encl n g y) : Encl n (f - g) (x - y) := Aff.sub_mem hn hf hg
theorem mul (hf : Encl n f x) (hg : Encl n g y) : Encl n (f * g) (x * y) := Aff.mul_mem hn hf hg
theorem div (hf : Encl n f x) (hg : Encl n g y) : Encl n (f / g) (x / y) := Aff.div_mem hn hf hg
theorem lit (m : ℤ) (e : ℕ) : Encl n (FloatLike.lit m e : Aff c h θ) (FloatLike.lit m e : Fl M) := Aff.lit_mem hn m e
theorem int (m : ℤ) : Encl n (ShouXing.int m : Aff c h θ) (ShouXing.int m : Fl M) := Aff.lit_mem hn m 0
theorem sel (hp : Encl n p u) (hq : Encl n q v) (hf : Encl n f x) (hg : Encl n g y) :
    Encl n (FloatLike.sel p q f g) (FloatLike.sel u v x y) := by
  have := Aff.sel_mem hn hp hq hf hg
  show Aff.Mem n (Aff.sel p q f g) (if u.v < v.v then x else y).v
  rw [apply_ite Fl.v]
  exact this
theorem frac (hf : Encl n f x) : Encl n (FloatLike.frac f) (FloatLike.frac x) := Aff.frac_mem hn hf

end ops

section trig
variable (hn : |n - c| ≤ h) (hM : M.Good) {f f2 f3 f4 : Aff c h θ} {x x2 x3 x4 : Fl M}
include hn hM

theorem sin (hf : Encl n f x) : Encl n (FloatLike.sin f) (FloatLike.sin x) := Aff.sin_mem hn hM hf
theorem cos (hf : Encl n f x) : Encl n (FloatLike.cos f) (FloatLike.cos x) := Aff.cos_mem hn hM hf
theorem eGroup (k : ℤ) (i : ℕ) (hf : Encl n f x) : Encl n (FloatLike.eGroup k i f) (FloatLike.eGroup k i x) := Aff.eGroup_mem hn hM hf
theorem mGroup (k : ℤ) (i : ℕ) (hf : Encl n f x) (hf2 : Encl n f2 x2) (hf3 : Encl n f3 x3) (hf4 : Encl n f4 x4) :
    Encl n (FloatLike.mGroup k i f f2 f3 f4) (FloatLike.mGroup k i x x2 x3 x4) := Aff.mGroup_mem hn hM hf hf2 hf3 hf4

end trig

/-- closes goals `Encl` by the rules above -/
macro "encl" : tactic => `(tactic| with_reducible repeat' first
  | assumption
  | apply Encl.add ‹_› | apply Encl.sub ‹_› | apply Encl.mul ‹_› | apply Encl.div ‹_›
  | exact Encl.lit ‹_› _ _ | exact Encl.int ‹_› _
  | apply Encl.sin ‹_› ‹_› | apply Encl.cos ‹_› ‹_› | apply Encl.eGroup ‹_› ‹_› | apply Encl.mGroup ‹_› ‹_›
  | apply Encl.sel ‹_› | apply Encl.frac ‹_›)

section funs
variable (hn : |n - c| ≤ h) (hM : M.Good) {f g : Aff c h θ} {x y : Fl M}
include hn

theorem PI : Encl n (ShouXing.PI : Aff c h θ) (ShouXing.PI : Fl M) := by unfold ShouXing.PI; encl
theorem ONE_THIRD : Encl n (ShouXing.ONE_THIRD : Aff c h θ) (ShouXing.ONE_THIRD : Fl M) := by unfold ShouXing.ONE_THIRD; encl
theorem SECOND_PER_DAY : Encl n (ShouXing.SECOND_PER_DAY : Aff c h θ) (ShouXing.SECOND_PER_DAY : Fl M) := by
  unfold ShouXing.SECOND_PER_DAY; encl
theorem SECOND_PER_RAD : Encl n (ShouXing.SECOND_PER_RAD : Aff c h θ) (ShouXing.SECOND_PER_RAD : Fl M) := by
  have := PI hn (θ := θ) (M := M)
  unfold ShouXing.SECOND_PER_RAD; encl

include hM

theorem nutLoop (hf : Encl n f x) (hg : Encl n g y) (b : Bool) (rows : List (ℤ × ℤ × ℤ × ℤ)) {d : Aff c h θ} {e : Fl M}
    (hd : Encl n d e) : Encl n (ShouXing.nutLoop f g b rows d) (ShouXing.nutLoop x y b rows e) := by
  induction rows generalizing b d e with
  | nil => exact hd
  | cons r rows ih =>
    obtain ⟨p, q, r, s⟩ := r
    unfold ShouXing.nutLoop
    apply ih
    cases b
    · simp only [Bool.false_eq_true, if_false]; encl
    · simp only [if_true]; encl

theorem nutationLon2 (hf : Encl n f x) : Encl n (ShouXing.nutationLon2 f) (ShouXing.nutationLon2 x) := by
  have h1 := SECOND_PER_RAD hn (θ := θ) (M := M)
  have h2 := nutLoop hn hM hf (mul hn hf hf) true NUT_B (int hn 0)
  unfold ShouXing.nutationLon2; encl

theorem eLon (k : ℤ) (hf : Encl n f x) : Encl n (ShouXing.eLon f k) (ShouXing.eLon x k) := by
  have h1 := SECOND_PER_RAD hn (θ := θ) (M := M)
  unfold ShouXing.eLon
  have h2 := div hn hf (int hn 10)
  generalize f / _ = f at h2 ⊢
  generalize x / _ = x at h2 ⊢
  dsimp only
  encl

theorem mLon (k : ℤ) (hf : Encl n f x) : Encl n (ShouXing.mLon f k) (ShouXing.mLon x k) := by
  have h1 := SECOND_PER_RAD hn (θ := θ) (M := M)
  unfold ShouXing.mLon
  dsimp only
  encl

theorem gxcSunLon (hf : Encl n f x) : Encl n (ShouXing.gxcSunLon f) (ShouXing.gxcSunLon x) := by
  have h1 := SECOND_PER_RAD hn (θ := θ) (M := M)
  unfold ShouXing.gxcSunLon
  dsimp only
  encl

theorem ev (hf : Encl n f x) : Encl n (ShouXing.ev f) (ShouXing.ev x) := by
  unfold ShouXing.ev
  dsimp only
  encl

theorem mv (hf : Encl n f x) : Encl n (ShouXing.mv f) (ShouXing.mv x) := by
  unfold ShouXing.mv
  dsimp only
  encl

theorem saLon (k : ℤ) (hf : Encl n f x) : Encl n (ShouXing.saLon f k) (ShouXing.saLon x k) := by
  have h1 := PI hn (θ := θ) (M := M)
  have h2 := eLon hn hM k hf
  have h3 := nutationLon2 hn hM hf
  have h4 := gxcSunLon hn hM hf
  unfold ShouXing.saLon
  encl

omit hM in
theorem dtExt (k : ℤ) (hf : Encl n f x) : Encl n (ShouXing.dtExt f k) (ShouXing.dtExt x k) := by
  unfold ShouXing.dtExt
  dsimp only
  encl

omit hM in
theorem dtRow (r : ℤ × ℤ × ℤ × ℤ × ℤ × ℤ) (hf : Encl n f x) : Encl n (ShouXing.dtRow f r) (ShouXing.dtRow x r) := by
  obtain ⟨y0, a, b, c, d, y1⟩ := r
  unfold ShouXing.dtRow
  dsimp only
  encl

omit hM in
theorem dtRows (rows : List (ℤ × ℤ × ℤ × ℤ × ℤ × ℤ)) (hf : Encl n f x) : Encl n (ShouXing.dtRows f rows) (ShouXing.dtRows x rows) := by
  induction rows with
  | nil => unfold ShouXing.dtRows; encl
  | cons r rows ih =>
    cases rows with
    | nil => exact dtRow hn r hf
    | cons s rows =>
      have h1 := dtRow hn r hf
      show Encl n (FloatLike.sel f (ShouXing.int r.2.2.2.2.2) (ShouXing.dtRow f r) (ShouXing.dtRows f (s :: rows)))
        (FloatLike.sel x (ShouXing.int r.2.2.2.2.2) (ShouXing.dtRow x r) (ShouXing.dtRows x (s :: rows)))
      encl

omit hM in
theorem dtCalc (hf : Encl n f x) : Encl n (ShouXing.dtCalc f) (ShouXing.dtCalc x) := by
  have h1 := dtExt hn 31 hf
  have h2 := dtExt hn 31 (int hn DT_END.1 : Encl n (_ : Aff c h θ) (_ : Fl M))
  have h3 := dtRows hn DT_AT hf
  unfold ShouXing.dtCalc
  encl

omit hM in
theorem dtT (hf : Encl n f x) : Encl n (ShouXing.dtT f) (ShouXing.dtT x) := by
  have h1 := SECOND_PER_DAY hn (θ := θ) (M := M)
  have h2 := dtCalc hn (add hn (div hn hf (lit hn 3652425 4)) (int hn 2000))
  unfold ShouXing.dtT
  encl

theorem saLonT (hf : Encl n f x) : Encl n (ShouXing.saLonT f) (ShouXing.saLonT x) := by
  have h1 := PI hn (θ := θ) (M := M)
  unfold ShouXing.saLonT
  have h2 := div hn (sub hn (sub hn hf (lit hn 175347 5)) h1) (lit hn 6283319653318 10)
  generalize (f - _ - _) / _ = t at h2 ⊢
  generalize (x - _ - _) / _ = t' at h2 ⊢
  dsimp only
  have h3 := add hn h2 (div hn (sub hn hf (saLon hn hM 10 h2)) (ev hn hM h2))
  generalize t + _ = t at h3 ⊢
  generalize t' + _ = t' at h3 ⊢
  exact add hn h3 (div hn (sub hn hf (saLon hn hM (-1) h3)) (ev hn hM h3))

theorem msaLon (k l : ℤ) (hf : Encl n f x) : Encl n (ShouXing.msaLon f k l) (ShouXing.msaLon x k l) := by
  have h1 := PI hn (θ := θ) (M := M)
  have h2 := mLon hn hM k hf
  have h3 := eLon hn hM l hf
  have h4 := gxcSunLon hn hM hf
  unfold ShouXing.msaLon
  encl

theorem msaLonT (hf : Encl n f x) : Encl n (ShouXing.msaLonT f) (ShouXing.msaLonT x) := by
  unfold ShouXing.msaLonT
  have hv := lit hn 777137714500204 11 (θ := θ) (M := M)
  have h2 := div hn (add hn hf (lit hn 108472 5)) hv
  generalize (f + _) / _ = t at h2 ⊢
  generalize (x + _) / _ = t' at h2 ⊢
  dsimp only
  have h3 := add hn h2 (div hn (sub hn hf (msaLon hn hM 3 3 h2)) hv)
  generalize t + _ = t at h3 ⊢
  generalize t' + _ = t' at h3 ⊢
  have h4 := sub hn (mv hn hM h3) (ev hn hM h3)
  generalize ShouXing.mv t - _ = v at h4 ⊢
  generalize ShouXing.mv t' - _ = v' at h4 ⊢
  have h5 := add hn h3 (div hn (sub hn hf (msaLon hn hM 20 10 h3)) h4)
  generalize t + _ = t at h5 ⊢
  generalize t' + _ = t' at h5 ⊢
  exact add hn h5 (div hn (sub hn hf (msaLon hn hM (-1) 60 h5)) h4)

theorem saLonT2 (hf : Encl n f x) : Encl n (ShouXing.saLonT2 f) (ShouXing.saLonT2 x) := by
  have h1 := PI hn (θ := θ) (M := M)
  have h0 := SECOND_PER_RAD hn (θ := θ) (M := M)
  unfold ShouXing.saLonT2
  have hv := lit hn 6283319653318 10 (θ := θ) (M := M)
  have h2 := div hn (sub hn (sub hn hf (lit hn 175347 5)) h1) hv
  dsimp only
  generalize (f - _ - _) / _ = t at h2 ⊢
  generalize (x - _ - _) / _ = t' at h2 ⊢
  have h3 : Encl n (t - (FloatLike.lit 5297 9 * t * t + FloatLike.lit 334166 7 * FloatLike.cos (FloatLike.lit 4669257 6 + FloatLike.lit 628307585 6 * t) +
    FloatLike.lit 2061 7 * FloatLike.cos (FloatLike.lit 267823 5 + FloatLike.lit 628307585 6 * t) * t) / FloatLike.lit 6283319653318 10)
    (t' - (FloatLike.lit 5297 9 * t' * t' + FloatLike.lit 334166 7 * FloatLike.cos (FloatLike.lit 4669257 6 + FloatLike.lit 628307585 6 * t') +
    FloatLike.lit 2061 7 * FloatLike.cos (FloatLike.lit 267823 5 + FloatLike.lit 628307585 6 * t') * t') / FloatLike.lit 6283319653318 10) := by encl
  generalize t - _ = t at h3 ⊢
  generalize t' - _ = t' at h3 ⊢
  have h4 := eLon hn hM 8 h3
  encl

theorem msaLonT2 (hf : Encl n f x) : Encl n (ShouXing.msaLonT2 f) (ShouXing.msaLonT2 x) := by
  have h1 := PI hn (θ := θ) (M := M)
  have h0 := SECOND_PER_RAD hn (θ := θ) (M := M)
  unfold ShouXing.msaLonT2
  have hv := lit hn 777137714500204 11 (θ := θ) (M := M)
  have h2 := div hn (add hn hf (lit hn 108472 5)) hv
  dsimp only
  generalize (f + _) / _ = t at h2 ⊢
  generalize (x + _) / _ = t' at h2 ⊢
  have h3 : Encl n (t - (FloatLike.lit (-3309) 8 * (t * t) + FloatLike.lit 10976 5 * FloatLike.cos (FloatLike.lit 784758 6 + FloatLike.lit 83286914246 7 * t + FloatLike.lit 152292 9 * (t * t)) +
    FloatLike.lit 2224 5 * FloatLike.cos (FloatLike.lit 18740 5 + FloatLike.lit 72140628654 7 * t - FloatLike.lit 21848 8 * (t * t)) -
    FloatLike.lit 3342 5 * FloatLike.cos (FloatLike.lit 4669257 6 + FloatLike.lit 628307585 6 * t)) / FloatLike.lit 777137714500204 11)
    (t' - (FloatLike.lit (-3309) 8 * (t' * t') + FloatLike.lit 10976 5 * FloatLike.cos (FloatLike.lit 784758 6 + FloatLike.lit 83286914246 7 * t' + FloatLike.lit 152292 9 * (t' * t')) +
    FloatLike.lit 2224 5 * FloatLike.cos (FloatLike.lit 18740 5 + FloatLike.lit 72140628654 7 * t' - FloatLike.lit 21848 8 * (t' * t')) -
    FloatLike.lit 3342 5 * FloatLike.cos (FloatLike.lit 4669257 6 + FloatLike.lit 628307585 6 * t')) / FloatLike.lit 777137714500204 11) := by encl
  generalize t - _ = t at h3 ⊢
  generalize t' - _ = t' at h3 ⊢
  have h4 := mLon hn hM 20 h3
  encl

/-- what `qiHigh` and `shuoHigh` do with the first approximation `t` and the better one `z` -/
theorem high (m : ℤ) {t z : Aff c h θ} {t' z' : Fl M} (ht : Encl n t t') (hz : Encl n z z') :
    let u := t * ShouXing.int 36525 - ShouXing.dtT (t * ShouXing.int 36525) + ShouXing.ONE_THIRD
    let u' := t' * ShouXing.int 36525 - ShouXing.dtT (t' * ShouXing.int 36525) + ShouXing.ONE_THIRD
    let v := FloatLike.frac (u + FloatLike.lit 5 1) * ShouXing.SECOND_PER_DAY
    let v' := FloatLike.frac (u' + FloatLike.lit 5 1) * ShouXing.SECOND_PER_DAY
    let w := z * ShouXing.int 36525 - ShouXing.dtT u + ShouXing.ONE_THIRD
    let w' := z' * ShouXing.int 36525 - ShouXing.dtT u' + ShouXing.ONE_THIRD
    Encl n (FloatLike.sel v (ShouXing.int m) w (FloatLike.sel (ShouXing.int (86400 - m)) v w u))
      (FloatLike.sel v' (ShouXing.int m) w' (FloatLike.sel (ShouXing.int (86400 - m)) v' w' u')) := by
  have h0 := SECOND_PER_DAY hn (θ := θ) (M := M)
  have h1 := ONE_THIRD hn (θ := θ) (M := M)
  have h2 := mul hn ht (int hn 36525)
  have h3 := add hn (sub hn h2 (dtT hn h2)) h1
  have h4 := mul hn (frac hn (add hn h3 (lit hn 5 1))) h0
  have h5 := add hn (sub hn (mul hn hz (int hn 36525)) (dtT hn h3)) h1
  exact sel hn h4 (int hn _) h5 (sel hn (int hn _) h4 h5 h3)

theorem qiHigh (hf : Encl n f x) : Encl n (ShouXing.qiHigh f) (ShouXing.qiHigh x) :=
  high hn hM 1200 (saLonT2 hn hM hf) (saLonT hn hM hf)

theorem shuoHigh (hf : Encl n f x) : Encl n (ShouXing.shuoHigh f) (ShouXing.shuoHigh x) :=
  high hn hM 1800 (msaLonT2 hn hM hf) (msaLonT hn hM hf)

theorem qiAccurate (hf : Encl n f x) : Encl n (ShouXing.qiAccurate f) (ShouXing.qiAccurate x) := by
  have h1 := mul hn (saLonT hn hM hf) (int hn 36525)
  exact add hn (sub hn h1 (dtT hn h1)) (ONE_THIRD hn)

theorem qiLow (hf : Encl n f x) : Encl n (ShouXing.qiLow f) (ShouXing.qiLow x) := by
  have h0 := SECOND_PER_DAY hn (θ := θ) (M := M)
  have h1 := ONE_THIRD hn (θ := θ) (M := M)
  unfold ShouXing.qiLow
  have hv := lit hn 6283319653318 10 (θ := θ) (M := M)
  have h2 := div hn (sub hn hf (lit hn 4895062166 9)) hv
  dsimp only
  generalize (f - _) / FloatLike.lit 6283319653318 10 = t at h2 ⊢
  generalize (x - _) / FloatLike.lit 6283319653318 10 = t' at h2 ⊢
  have h3 : Encl n (t - (ShouXing.int 53 * t * t + ShouXing.int 334116 * FloatLike.cos (FloatLike.lit 467 2 + FloatLike.lit 628307585 6 * t) +
    ShouXing.int 2061 * FloatLike.cos (FloatLike.lit 2678 3 + FloatLike.lit 6283076 4 * t) * t) / FloatLike.lit 6283319653318 10 / ShouXing.int 10000000)
    (t' - (ShouXing.int 53 * t' * t' + ShouXing.int 334116 * FloatLike.cos (FloatLike.lit 467 2 + FloatLike.lit 628307585 6 * t') +
    ShouXing.int 2061 * FloatLike.cos (FloatLike.lit 2678 3 + FloatLike.lit 6283076 4 * t') * t') / FloatLike.lit 6283319653318 10 / ShouXing.int 10000000) := by encl
  generalize t - _ / FloatLike.lit 6283319653318 10 / ShouXing.int 10000000 = t at h3 ⊢
  generalize t' - _ / FloatLike.lit 6283319653318 10 / ShouXing.int 10000000 = t' at h3 ⊢
  encl

theorem shuoLow (hf : Encl n f x) : Encl n (ShouXing.shuoLow f) (ShouXing.shuoLow x) := by
  have h0 := SECOND_PER_DAY hn (θ := θ) (M := M)
  have h1 := ONE_THIRD hn (θ := θ) (M := M)
  unfold ShouXing.shuoLow
  have hv := lit hn 777137714500204 11 (θ := θ) (M := M)
  have h2 := div hn (add hn hf (lit hn 108472 5)) hv
  dsimp only
  generalize (f + _) / FloatLike.lit 777137714500204 11 = t at h2 ⊢
  generalize (x + _) / FloatLike.lit 777137714500204 11 = t' at h2 ⊢
  encl

omit hM in
theorem shuoArg (hf : Encl n f x) : Encl n (ShouXing.shuoArg f) (ShouXing.shuoArg x) := by
  have h1 := PI hn (θ := θ) (M := M)
  unfold ShouXing.shuoArg
  encl

omit hM in
theorem qiArg (hf : Encl n f x) : Encl n (ShouXing.qiArg f) (ShouXing.qiArg x) := by
  have h1 := PI hn (θ := θ) (M := M)
  unfold ShouXing.qiArg
  encl

end funs
end Encl
