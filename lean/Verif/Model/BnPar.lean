import Verif.Model.BnHeap

/-!
# Goroutines which use the same `big.Int` objects

`Model/BnHeap.lean` runs a method from its start to its end.  Here a computation is the tree of the accesses it makes to objects,
so that several computations can be interleaved: between two accesses of one goroutine, other goroutines may make any number of
accesses.  An access concerns one `big.Int` object as a whole: an interleaving in which one goroutine uses an object while another
one is in the middle of writing the same object (which has several words) is not considered.  (The goroutines of C92 have no such
access.)

The pools (bn256.go:517-520) are made by the exported functions and are not known to other goroutines; they are passed along
in `BigP`.
-/

namespace Verif

/-- A computation, by its next access. -/
inductive BProg (α : Type) where
  /-- The end. -/
  | ret (a : α)
  /-- A panic. -/
  | panic
  /-- `new(big.Int)`. -/
  | new (k : Cell → BProg α)
  /-- The value of an object is read. -/
  | read (c : Cell) (k : Int → BProg α)
  /-- An object is overwritten. -/
  | write (c : Cell) (v : Int) (k : BProg α)

namespace BProg

/-- One computation after the other. -/
def bind {α β : Type} : BProg α → (α → BProg β) → BProg β
  | .ret a, f => f a
  | .panic, _ => .panic
  | .new k, f => .new fun c => (k c).bind f
  | .read c k, f => .read c fun v => (k v).bind f
  | .write c v k, f => .write c v (k.bind f)

/-- Running to the end without interruption, on the objects `mem` of which `next` is the first free number. -/
def run {α : Type} : BProg α → (Cell → Int) → Nat → Res (α × (Cell → Int) × Nat)
  | .ret a, mem, next => .ok (a, mem, next)
  | .panic, _, _ => .panic
  | .new k, mem, next => (k next).run (fun c => if c = next then 0 else mem c) (next + 1)
  | .read c k, mem, next => (k (mem c)).run mem next
  | .write d v k, mem, next => k.run (fun c => if c = d then v else mem c) next

/-- The next access. -/
def step {α : Type} : BProg α → (Cell → Int) → Nat → Res (BProg α × (Cell → Int) × Nat)
  | .ret a, mem, next => .ok (.ret a, mem, next)
  | .panic, _, _ => .panic
  | .new k, mem, next => .ok (k next, fun c => if c = next then 0 else mem c, next + 1)
  | .read c k, mem, next => .ok (k (mem c), mem, next)
  | .write d v k, mem, next => .ok (k, fun c => if c = d then v else mem c, next)

end BProg

/-! ### Several goroutines -/

/-- A goroutine: the objects it has made (numbered from the number of shared objects on; no other goroutine knows them), the first
free number, and what it still has to do. -/
structure BThread (α : Type) where
  own : Cell → Int
  next : Nat
  prog : BProg α

/-- The shared objects, numbered below `n`, and the goroutines. -/
structure BMachine (α : Type) where
  n : Nat
  shared : Cell → Int
  threads : List (BThread α)

namespace BMachine

variable {α : Type}

/-- The objects as goroutine `t` sees them. -/
def view (m : BMachine α) (t : BThread α) : Cell → Int := fun c => if c < m.n then m.shared c else t.own c

/-- Goroutine `i` makes its next access. -/
def step (m : BMachine α) (i : Nat) : Res (BMachine α) :=
  match m.threads[i]? with
  | none => .ok m
  | some t => do
    let (p, mem, next) ← t.prog.step (m.view t) t.next
    pure ⟨m.n, fun c => if c < m.n then mem c else m.shared c, m.threads.set i ⟨mem, next, p⟩⟩

/-- The accesses of the goroutines in the given order. -/
def exec (m : BMachine α) : List Nat → Res (BMachine α)
  | [] => .ok m
  | i :: is => do
    let m' ← m.step i
    m'.exec is

/-- The results, when all goroutines have finished. -/
def results (m : BMachine α) : Option (List α) :=
  m.threads.mapM fun t => match t.prog with
    | .ret a => some a
    | _ => none

/-- Goroutines which are about to start, with the objects numbered below `n`. -/
def start (n : Nat) (mem : Cell → Int) (ps : List (BProg α)) : BMachine α := ⟨n, mem, ps.map fun p => ⟨mem, n, p⟩⟩

end BMachine

/-! ### Computations with a pool -/

/-- A computation which gets objects from a pool and gives them back. -/
def BigP (α : Type) : Type := Option (List Cell) → BProg (α × Option (List Cell))

namespace BigP

instance : Monad BigP where
  pure a := fun p => .ret (a, p)
  bind m f := fun p => (m p).bind fun r => f r.1 r.2

/-- Run without interruption, a computation of `Model/BnHeap.lean`. -/
def alone {α : Type} (m : BigP α) : BigM α := fun s =>
  (m s.pool).run s.mem s.next >>= fun r => .ok (r.1.1, ⟨r.2.1, r.2.2, r.1.2⟩)

/-- What a goroutine does which calls `m` with the nil pool. -/
def prog {α : Type} (m : BigP α) : BProg α := (m none).bind fun r => .ret r.1

/-- `new(big.Int)`. -/
def new : BigP Cell := fun p => .new fun c => .ret (c, p)

/-- `Get`, crypto/bn256/bn256.go:522-536. -/
def get : BigP Cell := fun p =>
  match p with
  | none => new p
  | some bns =>
    match bns.getLast? with
    | none => new p
    | some bn => .ret (bn, some bns.dropLast)

/-- `Put`, bn256.go:538-544. -/
def put (c : Cell) : BigP Unit := fun p =>
  match p with
  | none => .ret ((), p)
  | some bns => .ret ((), some (bns ++ [c]))

/-- The value of an object. -/
def read (a : Cell) : BigP Int := fun p => .read a fun v => .ret (v, p)

/-- Overwrite an object. -/
def write (d : Cell) (v : Int) : BigP Unit := fun p => .write d v (.ret ((), p))

/-- A run-time panic. -/
def panic {α : Type} : BigP α := fun _ => .panic

/-- Run with `new(bnPool)` or with the nil pool; the pool is dropped afterwards. -/
def withPool {α : Type} (q : Option (List Cell)) (m : BigP α) : BigP α := fun p => (m q).bind fun r => .ret (r.1, p)

/-- The outcome of a computation that does not use the heap. -/
def ofRes {α : Type} (r : Res α) : BigP α := fun p =>
  match r with
  | .ok a => .ret (a, p)
  | .panic => .panic

/-- `d.Add(a, b)` of math/big (trusted reading, as the following; all of them allow `d` to be `a` or `b`). -/
def add (d a b : Cell) : BigP Unit := do write d ((← read a) + (← read b))
/-- `d.Sub(a, b)`. -/
def sub (d a b : Cell) : BigP Unit := do write d ((← read a) - (← read b))
/-- `d.Mul(a, b)`. -/
def mul (d a b : Cell) : BigP Unit := do write d ((← read a) * (← read b))
/-- `d.Mod(a, P)`. -/
def mod (d a : Cell) : BigP Unit := do write d ((← read a) % bnP)
/-- `d.Neg(a)`. -/
def neg (d a : Cell) : BigP Unit := do write d (-(← read a))
/-- `d.Set(a)`. -/
def set (d a : Cell) : BigP Unit := do write d (← read a)
/-- `d.SetInt64(n)`. -/
def setInt (d : Cell) (n : Int) : BigP Unit := write d n
/-- `d.Lsh(a, 1)`. -/
def lsh1 (d a : Cell) : BigP Unit := do write d ((← read a) * 2)
/-- `d.Lsh(a, 3)`. -/
def lsh3 (d a : Cell) : BigP Unit := do write d ((← read a) * 8)
/-- `d.ModInverse(a, P)`: if there is no inverse, `d` is unchanged; the result says whether nil was returned. -/
def modInv (d a : Cell) : BigP Bool := do
  match modInverse (← read a) bnP with
  | none => pure true
  | some v => write d v; pure false
/-- The condition and statement `if e.Sign() < 0 || e.Cmp(P) >= 0 { e.Mod(e, P) }`, for example gfp2.go:68-70. -/
def reduce (e : Cell) : BigP Unit := do
  let v ← read e
  if v < 0 ∨ v ≥ bnP then mod e e else pure ()

end BigP

end Verif
