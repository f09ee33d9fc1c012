import Mathlib.Algebra.Order.Field.Basic

/-!
# Dynamic choice of the method

Model of the functions of src/eigs/main_iter.c that run the two methods of `PRIMME_DYNAMIC` in turns: `switch_from_JDQMR` (1943-2011),
`switch_from_GDpk` (2050-2109), `update_statistics` (2194-2341), `ratio_JDQMR_GDpk` (2352-2362), `update_slowdown` (2372-2401),
`initializeModel` (2406-2440), and of the places where they are called: 427-437, 600-620, 670, 1176-1184, 1221-1228, 1296-1303.

Times and rates are floating point numbers that may become NaN or infinite, since the code divides by measured times; comparisons are
modelled exactly and the arithmetic is an arbitrary function (`Arith`).
-/

namespace Verif.Dynamic

/-- A floating point value. -/
inductive Dbl (K : Type) where
  | nan
  | inf (neg : Bool)
  | num (q : K)
  deriving DecidableEq

variable {K : Type} [Field K] [LinearOrder K]

/-- `a < b` of C: false if one of them is NaN. -/
def Dbl.lt : Dbl K → Dbl K → Bool
  | .nan, _ => false
  | _, .nan => false
  | .inf true, .inf true => false
  | .inf true, _ => true
  | .inf false, _ => false
  | .num _, .inf neg => !neg
  | .num a, .num b => decide (a < b)

/-- `a == b` of C. -/
def Dbl.eq : Dbl K → Dbl K → Bool
  | .inf a, .inf b => a == b
  | .num a, .num b => decide (a = b)
  | _, _ => false

/-- `a <= b` of C. -/
def Dbl.le (a b : Dbl K) : Bool := a.lt b || a.eq b

/-- `#define max(a, b) ((a) > (b) ? (a) : (b))`, src/include/common.h:656. -/
def Dbl.max (a b : Dbl K) : Dbl K := if Dbl.lt b a then a else b

/-- `#define min(a, b) ((a) < (b) ? (a) : (b))`, src/include/common.h:659. -/
def Dbl.min (a b : Dbl K) : Dbl K := if Dbl.lt a b then a else b

/-- Rounded arithmetic and the functions of the mathematical library: nothing is assumed about them. -/
structure Arith (K : Type) where
  add : Dbl K → Dbl K → Dbl K
  sub : Dbl K → Dbl K → Dbl K
  mul : Dbl K → Dbl K → Dbl K
  div : Dbl K → Dbl K → Dbl K
  neg : Dbl K → Dbl K
  log : Dbl K → Dbl K
  exp : Dbl K → Dbl K
  ofInt : Int → Dbl K

/-- `primme_CostModel`, main_iter.c:62-110. -/
structure Model (K : Type) where
  MV_PR : Dbl K
  MV : Dbl K
  PR : Dbl K
  qmr_only : Dbl K
  qmr_plus_MV_PR : Dbl K
  gdk_plus_MV_PR : Dbl K
  gdk_plus_MV : Dbl K
  project_locked : Dbl K
  reortho_locked : Dbl K
  gdk_conv_rate : Dbl K
  jdq_conv_rate : Dbl K
  JDQMR_slowdown : Dbl K
  ratio_MV_outer : Dbl K
  nextReset : Int
  gdk_sum_log : Dbl K
  jdq_sum_log : Dbl K
  gdk_sum_MV : Dbl K
  jdq_sum_MV : Dbl K
  nevals_by_gdk : Int
  nevals_by_jdq : Int
  numMV_0 : Int
  numIt_0 : Int
  timer_0 : Dbl K
  time_in_inner : Dbl K
  resid_0 : Dbl K
  accum_jdq : Dbl K
  accum_gdk : Dbl K
  accum_jdq_gdk : Dbl K

/-- The members of the parameter structure that these functions read or write.  `reductions` counts the calls of `globalSum`, which all
processes have to make together. -/
structure Par (K : Type) where
  dyn : Int
  maxInner : Int
  rightX : Int
  numEvals : Int
  maxBasisSize : Int
  locking : Bool
  n : Int
  numProcs : Int
  numRestarts : Int
  numOuter : Int
  numMatvecs : Int
  maxConvTol : Dbl K
  reductions : ℕ

/-- `primme->maxBasisSize + (primme->locking ? primme->numEvals : 0) >= primme->n`, main_iter.c:430-432, 2060-2062. -/
def saturates (p : Par K) : Bool := decide (p.n ≤ p.maxBasisSize + if p.locking then p.numEvals else 0)

/-- `initializeModel`, main_iter.c:2406-2440; `now` is what the timer shows. -/
def initializeModel (p : Par K) (now : Dbl K) : Model K where
  MV_PR := .num 0
  MV := .num 0
  PR := .num 0
  qmr_only := .num 0
  qmr_plus_MV_PR := .num 0
  gdk_plus_MV_PR := .num 0
  gdk_plus_MV := .num 0
  project_locked := .num 0
  reortho_locked := .num 0
  gdk_conv_rate := .num (1 / 10000)
  jdq_conv_rate := .num (1 / 10000)
  JDQMR_slowdown := .num (3 / 2)
  ratio_MV_outer := .num 0
  nextReset := 1
  gdk_sum_log := .num 0
  jdq_sum_log := .num 0
  gdk_sum_MV := .num 0
  jdq_sum_MV := .num 0
  nevals_by_gdk := 0
  nevals_by_jdq := 0
  numMV_0 := p.numMatvecs
  numIt_0 := p.numOuter + 1
  timer_0 := now
  time_in_inner := .num 0
  resid_0 := .num (-1)
  accum_jdq := .num 0
  accum_gdk := .num 0
  accum_jdq_gdk := .num 1

/-- main_iter.c:427-437.  `mv` is the measured time of a product. -/
def start (p : Par K) (now mv : Dbl K) : Par K × Model K :=
  let m := { initializeModel p now with MV := mv }
  if 0 < p.dyn then
    (if p.numEvals < 5 ∨ saturates p = true then { p with dyn := 1, maxInner := 0 } else { p with dyn := 3, maxInner := 0 }, m)
  else (p, m)

/-- `update_slowdown`, main_iter.c:2372-2401. -/
def slowdownOf (o : Arith K) (m : Model K) : Dbl K :=
  if m.gdk_conv_rate.lt (.num 1) then
    if m.jdq_conv_rate.lt (.num 1) then o.div (o.log m.gdk_conv_rate) (o.log m.jdq_conv_rate)
    else if m.jdq_conv_rate.eq (.num 1) then .num (5 / 2)
    else o.div (o.neg (o.log m.gdk_conv_rate)) (o.log m.jdq_conv_rate)
  else if m.gdk_conv_rate.eq (.num 1) then .num (11 / 10)
  else
    if m.jdq_conv_rate.lt (.num 1) then o.div (o.log m.gdk_conv_rate) (o.log m.jdq_conv_rate)
    else if m.jdq_conv_rate.eq (.num 1) then .num (11 / 10)
    else o.div (o.log m.jdq_conv_rate) (o.log m.gdk_conv_rate)

/-- The two bounds of `update_slowdown`, main_iter.c:2395-2400. -/
def updateSlowdown (o : Arith K) (m : Model K) : Model K :=
  let s := Dbl.max (o.div m.ratio_MV_outer (o.sub m.ratio_MV_outer (.num 1))) (Dbl.min (slowdownOf o m) m.ratio_MV_outer)
  { m with JDQMR_slowdown := Dbl.max (.num (11 / 10)) (Dbl.min s (.num (5 / 2))) }

/-- `ratio_JDQMR_GDpk`, main_iter.c:2352-2362. -/
def ratio (o : Arith K) (m : Model K) (numLocked : Int) (slow mvOuter : Dbl K) : Dbl K :=
  let l := o.ofInt numLocked
  o.div (o.mul slow (o.add (o.add m.qmr_plus_MV_PR (o.mul m.project_locked l))
      (o.div (o.add (o.sub (o.sub m.gdk_plus_MV m.qmr_only) m.qmr_plus_MV_PR)
        (o.mul (o.sub m.reortho_locked m.project_locked) l)) mvOuter)))
    (o.add m.gdk_plus_MV_PR (o.mul m.reortho_locked l))

/-- Average with the previous measurement, or the measurement if there is none. -/
def average (o : Arith K) (old new : Dbl K) : Dbl K :=
  if old.eq (.num 0) then new else o.div (o.add old new) (.num 2)

/-- The reset of the averaging window, main_iter.c:2262-2270. -/
def window (o : Arith K) (numConverged : Int) (m : Model K) : Model K :=
  if m.nextReset ≤ Int.tdiv numConverged 10 then
    { m with
      gdk_sum_log := o.div m.gdk_sum_log (o.ofInt m.nevals_by_gdk), gdk_sum_MV := o.div m.gdk_sum_MV (o.ofInt m.nevals_by_gdk)
      jdq_sum_log := o.div m.jdq_sum_log (o.ofInt m.nevals_by_jdq), jdq_sum_MV := o.div m.jdq_sum_MV (o.ofInt m.nevals_by_jdq)
      nextReset := Int.tdiv numConverged 10 + 1, nevals_by_gdk := 1, nevals_by_jdq := 1 }
  else m

/-- Measurements of GD+k, main_iter.c:2274-2300. -/
def measureGD (o : Arith K) (kout nMV : Int) (low : Dbl K) (m : Model K) : Model K :=
  let pr := average o m.PR (o.div m.time_in_inner (o.ofInt kout))
  let sumLog := if low.le m.resid_0 then o.add m.gdk_sum_log (o.log (o.div low m.resid_0)) else m.gdk_sum_log
  let sumMV := o.add m.gdk_sum_MV (o.ofInt nMV)
  { m with PR := pr, gdk_plus_MV_PR := o.add m.gdk_plus_MV pr, MV_PR := o.add m.MV pr, gdk_sum_log := sumLog
           gdk_sum_MV := sumMV, gdk_conv_rate := o.exp (o.div sumLog sumMV) }

/-- Measurements of JDQMR, main_iter.c:2302-2324. -/
def measureJD (o : Arith K) (kout nMV : Int) (kinn low : Dbl K) (m : Model K) : Model K :=
  let q := o.div (o.sub (o.div m.time_in_inner (o.ofInt kout)) m.MV_PR) kinn
  let perOuter := o.div (o.ofInt nMV) (o.ofInt kout)
  let first := m.qmr_plus_MV_PR.eq (.num 0)
  let qp := if first then q else if kinn.eq (.num 0) then m.qmr_plus_MV_PR else o.div (o.add m.qmr_plus_MV_PR q) (.num 2)
  let rm := if first then perOuter else o.div (o.add m.ratio_MV_outer perOuter) (.num 2)
  let sumLog := if low.le m.resid_0 then o.add m.jdq_sum_log (o.log (o.div low m.resid_0)) else m.jdq_sum_log
  let sumMV := o.add m.jdq_sum_MV (o.ofInt nMV)
  { m with qmr_plus_MV_PR := qp, ratio_MV_outer := rm, qmr_only := o.sub qp m.MV_PR, gdk_plus_MV_PR := o.add m.gdk_plus_MV m.PR
           jdq_sum_log := sumLog, jdq_sum_MV := sumMV, jdq_conv_rate := o.exp (o.div sumLog sumMV) }

/-- Outer iterations since the last update, main_iter.c:2212-2216. -/
def koutOf (p : Par K) (atRestart : Bool) (m : Model K) : Int := p.numOuter - m.numIt_0 + if atRestart then 1 else 0

/-- Inner iterations per outer iteration since the last update, main_iter.c:2213, 2219. -/
def kinnOf (o : Arith K) (p : Par K) (atRestart : Bool) (m : Model K) : Dbl K :=
  o.sub (o.div (o.ofInt (p.numMatvecs - m.numMV_0)) (o.ofInt (koutOf p atRestart m))) (.num 2)

/-- The pairs found are credited to the method running, main_iter.c:2231-2239. -/
def credit (p : Par K) (recent : Int) (m : Model K) : Model K :=
  if 0 < recent then
    if p.maxInner = -1 then { m with nevals_by_jdq := m.nevals_by_jdq + recent } else { m with nevals_by_gdk := m.nevals_by_gdk + recent }
  else m

/-- The measurements of the method running, main_iter.c:2272-2326. -/
def measure (o : Arith K) (p : Par K) (kout nMV : Int) (kinn low : Dbl K) (m : Model K) : Model K :=
  if p.dyn = 1 ∨ p.dyn = 3 then measureGD o kout nMV low m
  else if p.dyn = 2 ∨ p.dyn = 4 then measureJD o kout nMV kinn low m else m

/-- The time of an outer iteration, main_iter.c:2250-2253. -/
def timeOuter (o : Arith K) (now : Dbl K) (kout : Int) (m m' : Model K) : Model K :=
  { m' with gdk_plus_MV := average o m'.gdk_plus_MV (o.div (o.sub (o.sub now m.timer_0) m.time_in_inner) (o.ofInt kout)) }

/-- The update proper, main_iter.c:2222-2340. -/
def updated (o : Arith K) (p : Par K) (now : Dbl K) (recent : Int) (atRestart : Bool) (numConverged : Int) (resid : Dbl K)
    (m : Model K) : Model K :=
  { updateSlowdown o (measure o p (koutOf p atRestart m) (p.numMatvecs - m.numMV_0) (kinnOf o p atRestart m)
      (if 0 < recent then p.maxConvTol else resid)
      (window o numConverged (timeOuter o now (koutOf p atRestart m) m (credit p recent m)))) with
    numIt_0 := p.numOuter + (if atRestart then 1 else 0), numMV_0 := p.numMatvecs, timer_0 := now
    time_in_inner := .num 0, resid_0 := resid }

/-- `update_statistics`, main_iter.c:2194-2341: the return value and the model. -/
def updateStatistics (o : Arith K) (p : Par K) (now : Dbl K) (recent : Int) (atRestart : Bool) (numConverged : Int) (resid : Dbl K)
    (m : Model K) : Bool × Model K :=
  if koutOf p atRestart m = 0 then (false, m)
  else if p.maxInner = -1 ∧ (kinnOf o p atRestart m).lt (.num 1) = true ∧ m.qmr_only.eq (.num 0) = true then (false, m)
  else (true, updated o p now recent atRestart numConverged resid m)

/-- `accum_jdq`, `accum_gdk` and their ratio, main_iter.c:2000-2002, 2099-2101. -/
def accumulate (o : Arith K) (r : Dbl K) (m : Model K) : Model K :=
  let a := o.add m.accum_jdq (o.mul m.gdk_plus_MV_PR r)
  let b := o.add m.accum_gdk m.gdk_plus_MV_PR
  { m with accum_jdq := a, accum_gdk := b, accum_jdq_gdk := o.div a b }

/-- The mean over the processes: `globalSum` and the division by `numProcs`; `sum` is the result of the reduction. -/
def mean (o : Arith K) (p : Par K) (sum : Dbl K) : Dbl K := o.div sum (o.ofInt p.numProcs)

/-- `switch_from_JDQMR`, main_iter.c:1943-2011.  `sum i own`: result of the `i`-th reduction of this call when this process
contributes `own`.  A failing reduction is left out. -/
def switchFromJDQMR (o : Arith K) (sum : ℕ → Dbl K → Dbl K) (p : Par K) (m : Model K) : Par K × Model K :=
  let best := mean o p (sum 0 (ratio o m 0 (.num (11 / 10)) (.num 1000)))
  let p' := if p.dyn = 2 then { p with reductions := p.reductions + 1 } else p
  if p.dyn = 2 ∧ (Dbl.num (21 / 20)).lt best = true then ({ p' with dyn := -1, maxInner := 0, rightX := 1 }, m)
  else
    let dest := if p.dyn = 2 then 1 else if p.dyn = 4 then 3 else 0
    let r := mean o p (sum 1 (ratio o m 0 m.JDQMR_slowdown m.ratio_MV_outer))
    let p' := { p' with reductions := p'.reductions + 1 }
    (if (Dbl.num (21 / 20)).lt r then { p' with dyn := dest, maxInner := 0, rightX := 1 } else p', accumulate o r m)

/-- `switch_from_GDpk`, main_iter.c:2050-2109. -/
def switchFromGDpk (o : Arith K) (sum : ℕ → Dbl K → Dbl K) (p : Par K) (m : Model K) : Par K × Model K :=
  if p.numRestarts = 0 ∨ saturates p = true then (p, m)
  else
    let dest := if p.dyn = 1 then 2 else if p.dyn = 3 then 4 else 0
    if m.qmr_only.eq (.num 0) then ({ p with dyn := dest, maxInner := -1, rightX := 0 }, m)
    else
      let r := mean o p (sum 0 (ratio o m 0 m.JDQMR_slowdown m.ratio_MV_outer))
      let p' := { p with reductions := p.reductions + 1 }
      (if r.lt (.num (19 / 20)) then { p' with dyn := dest, maxInner := -1, rightX := 0 } else p', accumulate o r m)

/-- What the surrounding code provides at a call: the counters of the statistics, the times, and the results of the reductions. -/
structure Seen (K : Type) where
  numOuter : Int
  numMatvecs : Int
  numRestarts : Int
  maxConvTol : Dbl K
  now : Dbl K
  mv : Dbl K
  resid : Dbl K
  numConverged : Int
  sum : ℕ → Dbl K → Dbl K

/-- The counters are taken over. -/
def Par.see (p : Par K) (e : Seen K) : Par K :=
  { p with numOuter := e.numOuter, numMatvecs := e.numMatvecs, numRestarts := e.numRestarts, maxConvTol := e.maxConvTol }

/-- Places of the main iteration that take part. -/
inductive Event (K : Type) where
  /-- main_iter.c:600-620, after the block has been chosen; `recent` pairs converged. -/
  | chosen (recent : Int) (e : Seen K)
  /-- main_iter.c:670: time spent on the correction. -/
  | corrected (dt : Dbl K)
  /-- main_iter.c:1176-1184, after a restart. -/
  | restarted (e : Seen K)

/-- One event. -/
def step (o : Arith K) (s : Par K × Model K) : Event K → Par K × Model K
  | .chosen recent e =>
    let p := s.1.see e
    if 0 < p.dyn then
      let m := if s.2.resid_0.eq (.num (-1)) then { s.2 with resid_0 := e.resid } else s.2
      if 0 < recent ∨ p.dyn = 2 then
        let u := updateStatistics o p e.now recent false e.numConverged e.resid { m with MV := e.mv }
        if u.1 then
          if p.dyn = 3 then switchFromGDpk o e.sum p u.2
          else if p.dyn = 2 ∨ p.dyn = 4 then switchFromJDQMR o e.sum p u.2
          else (p, u.2)
        else (p, u.2)
      else (p, m)
    else (p, s.2)
  | .corrected dt => (s.1, { s.2 with time_in_inner := o.add s.2.time_in_inner dt })
  | .restarted e =>
    let p := s.1.see e
    if p.dyn = 1 then
      let u := updateStatistics o p e.now 0 true e.numConverged e.resid { s.2 with MV := e.mv }
      switchFromGDpk o e.sum p u.2
    else (p, s.2)

/-- A history. -/
def run (o : Arith K) (s : Par K × Model K) (h : List (Event K)) : Par K × Model K := h.foldl (step o) s

/-- The recommendation, main_iter.c:1221-1228 and 1296-1303. -/
def recommend (s : Par K × Model K) : Par K :=
  if 0 < s.1.dyn then
    if s.2.accum_jdq_gdk.lt (.num (24 / 25)) then { s.1 with dyn := -2 }
    else if (Dbl.num (26 / 25)).lt s.2.accum_jdq_gdk then { s.1 with dyn := -1 }
    else { s.1 with dyn := -3 }
  else s.1

/-- The ways out of the call: the test of the outer loop, main_iter.c:444-447, ends it without passing the recommendation
(1326-1340); the others pass it. -/
def leave (byTest : Bool) (s : Par K × Model K) : Par K := if byTest then s.1 else recommend s

end Verif.Dynamic
