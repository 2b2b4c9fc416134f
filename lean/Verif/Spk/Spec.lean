import Mathlib.Logic.Relation
import Verif.Spk.Model

/-
What a state query is for, without the search: chains of segments in the graph of bodies. Only the
record of a segment (`Seg`, `KSeg`) is taken from the model.
-/
namespace Verif.Spk.Spec

variable {T V : Type}

/-- The segment covers the epoch. -/
def Covers [LinearOrder T] (e : T) (s : Seg T V) : Prop := s.start ≤ e ∧ e ≤ s.stop

/-- `s` links `a` to `b`, in either direction. -/
def Joins (s : Seg T V) (a b : Int) : Prop :=
  (s.target = a ∧ s.center = b) ∨ (s.center = a ∧ s.target = b)

/-- Some segment that covers the epoch links `a` and `b`. -/
def Adj [LinearOrder T] (segs : List (Seg T V)) (e : T) (a b : Int) : Prop :=
  ∃ s ∈ segs, Covers e s ∧ Joins s a b

/-- A chain of covering segments connects two bodies. -/
def Linked [LinearOrder T] (segs : List (Seg T V)) (e : T) : Int → Int → Prop :=
  Relation.ReflTransGen (Adj segs e)

/-- A chain of segments connects two bodies, whatever their coverage. -/
def LinkedAny (segs : List (Seg T V)) : Int → Int → Prop :=
  Relation.ReflTransGen (fun a b => ∃ s ∈ segs, Joins s a b)

/-- `v` is the signed sum along a chain of covering segments from `a` to `b`: plus from target to
center, minus from center to target. -/
inductive ChainSum [LinearOrder T] [AddCommGroup V] (segs : List (Seg T V)) (e : T) : Int → Int → V → Prop
  | nil (a : Int) : ChainSum segs e a a 0
  | forward {s : Seg T V} {f : T → Except Err V} {x v : V} {b : Int} (mem : s ∈ segs) (cov : Covers e s)
      (ev : s.eval = some f) (val : f e = .ok x) (rest : ChainSum segs e s.center b v) :
      ChainSum segs e s.target b (x + v)
  | backward {s : Seg T V} {f : T → Except Err V} {x v : V} {b : Int} (mem : s ∈ segs) (cov : Covers e s)
      (ev : s.eval = some f) (val : f e = .ok x) (rest : ChainSum segs e s.target b v) :
      ChainSum segs e s.center b (-x + v)

/-- All segments agree with one ephemeris `pos` at the epoch. -/
def Consistent [LinearOrder T] [AddCommGroup V] (segs : List (Seg T V)) (e : T) (pos : Int → V) : Prop :=
  ∀ s ∈ segs, Covers e s → ∀ f, s.eval = some f → ∀ x, f e = .ok x → x = pos s.target - pos s.center

/-- Every segment that covers the epoch can be evaluated. -/
def Evaluable [LinearOrder T] (segs : List (Seg T V)) (e : T) : Prop :=
  ∀ s ∈ segs, Covers e s → ∃ f, s.eval = some f ∧ ∃ x, f e = .ok x

/-! ### Resolution towards the solar-system barycenter -/

/-- The segment can serve the epoch. -/
def Serves [LinearOrder T] (e : T) (s : KSeg T V) (x : V) : Prop :=
  (s.start ≤ e ∧ e ≤ s.stop) ∧ s.pos e = .ok x

/-- `v` is the sum along a chain of serving segments from `a` to the barycenter (body 0). Earth (399)
may also hang on the Earth-Moon barycenter (3) through the Moon (301), with mass ratio `r`. -/
inductive ToSsb (K : Type) [Field K] [LinearOrder T] [AddCommGroup V] [Module K V] (r : K)
    (segs : List (KSeg T V)) (e : T) : Int → V → Prop
  | ssb : ToSsb K r segs e 0 0
  | segment {s : KSeg T V} {x v : V} (mem : s ∈ segs) (ok : Serves e s x)
      (rest : ToSsb K r segs e s.center v) : ToSsb K r segs e s.target (v + x)
  | earth {s : KSeg T V} {x v : V} (mem : s ∈ segs) (hm : s.target = 301) (hc : s.center = 3)
      (ok : Serves e s x) (rest : ToSsb K r segs e 3 v) : ToSsb K r segs e 399 (v - (1 / r) • x)

/-- All segments agree with one ephemeris at the epoch. -/
def ConsistentK [LinearOrder T] [AddCommGroup V] (segs : List (KSeg T V)) (e : T) (pos : Int → V) : Prop :=
  ∀ s ∈ segs, ∀ x, Serves e s x → x = pos s.target - pos s.center

/-- A chain of serving segments from `a` down to body 0 that meets no body twice and none of `avoid`. -/
inductive Simple [LinearOrder T] (segs : List (KSeg T V)) (e : T) : List Int → Int → Prop
  | ssb (avoid : List Int) : Simple segs e avoid 0
  | segment {s : KSeg T V} {x : V} {avoid : List Int} (mem : s ∈ segs) (ok : Serves e s x)
      (fresh : s.target ∉ avoid) (rest : Simple segs e (avoid ++ [s.target]) s.center) :
      Simple segs e avoid s.target

end Verif.Spk.Spec
