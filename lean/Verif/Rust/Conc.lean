import Verif.Rust.Prim
/-
Shared memory of 64-bit atomic cells, and threads as interleavings of atomic steps.
Part of the trusted reading of Rust (`std::sync::Arc`, `std::sync::atomic`). Every access to a single cell is
totally ordered in Rust whatever the `Ordering` argument, which is all that the modelled code relies on.
-/
namespace USiem

/-- The cells behind all `Arc<AtomicI64>` / `Arc<AtomicU64>`; a handle (and every clone of it) is an index. -/
abbrev Heap := List (BitVec 64)

/-- `load`. -/
def Heap.load (h : Heap) (a : Nat) : BitVec 64 := h.getD a 0

/-- One atomic read-modify-write step. Additions wrap around, as `fetch_add` / `fetch_sub` do. -/
inductive AtomicOp where
  | fetchAdd (a : Nat) (v : BitVec 64)
  | fetchSub (a : Nat) (v : BitVec 64)
  | store (a : Nat) (v : BitVec 64)
  deriving DecidableEq

def AtomicOp.run (h : Heap) : AtomicOp → Heap
  | .fetchAdd a v => h.set a (h.load a + v)
  | .fetchSub a v => h.set a (h.load a - v)
  | .store a v => h.set a v

/-- Run a sequence of atomic steps. -/
def runAll (h : Heap) (ops : List AtomicOp) : Heap := ops.foldl AtomicOp.run h

/-- `Interleaving threads trace`: `trace` is a complete run of the threads, each executing its own steps in order,
the scheduler picking any unfinished thread at every moment. -/
inductive Interleaving {α : Type} : List (List α) → List α → Prop where
  | done (ts : List (List α)) : (∀ t ∈ ts, t = []) → Interleaving ts []
  | step (pre : List (List α)) (x : α) (t : List α) (post : List (List α)) (tr : List α) :
      Interleaving (pre ++ t :: post) tr → Interleaving (pre ++ (x :: t) :: post) (x :: tr)

end USiem
