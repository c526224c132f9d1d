import Verif.Relation
import Verif.Interface
/-!
# Memory

The other modules of the model describe data structures by their values.  Here the structures are in a memory of allocated
blocks, and the functions which allocate, link and free them are modelled on that memory: using or freeing something which is
not allocated is undefined (`ub`).

A heap is a finite map from addresses to blocks; NULL is the address 0.  What `malloc` returns is a parameter
(`Allocator`): any function of the heap which gives a non NULL address which is not in use.  In particular freed addresses may
be used again.  Allocation does not fail.
-/

namespace Osl.Mem

abbrev Ptr := Nat

/-- An element of an array of `osl_int_t` (include/osl/int.h:78-86): an integer, or a pointer to a GMP integer, or
uninitialised memory. -/
inductive Cell where
  | val (v : Int)
  | mp (p : Ptr)
  | garbage
deriving Repr, DecidableEq

/-- The integer fields of `osl_relation_t` (include/osl/relation.h:102-117). -/
structure Hdr where
  type : Int
  precision : Int
  nb_rows : Int
  nb_columns : Int
  nb_output_dims : Int
  nb_input_dims : Int
  nb_local_dims : Int
  nb_parameters : Int
deriving Repr, DecidableEq

/-- The blocks the library allocates: `osl_relation_t` (with its pointers `m`, `next`), an array of `osl_int_t*` (each the address
of a block and an index in it), an array of `osl_int_t`, an `mpz_t`, and structures which are an array of pointers
(`osl_relation_list_t` is `[elt, next]`, `osl_statement_t` is `[domain, scattering, access, extension, next]`...), a C string, a
vector (`osl_vector_t`: precision, size, `v`), a node of an interface list (`osl_interface_t`: URI, function pointers, `next`), and other
structures or arrays, with integers and pointers. -/
inductive Block where
  | rel (h : Hdr) (m next : Ptr)
  | rows (l : List (Ptr × Nat))
  | ints (l : List Cell)
  | mpz (v : Int)
  | ptrs (l : List Ptr)
  | chars (s : List Char)
  | vec (precision size : Int) (v : Ptr)
  | iface (uri : Ptr) (fns : Fns) (next : Ptr)
  | node (ints : List Int) (ptrs : List Ptr)
deriving Repr, DecidableEq

/-- The allocated blocks. -/
structure Heap where
  cells : List (Ptr × Block)
deriving Repr, DecidableEq

/-- What is allocated at an address. -/
def lookup : List (Ptr × Block) → Ptr → Option Block
  | [], _ => none
  | (p, b) :: l, q => if p = q then some b else lookup l q

namespace Heap

def get (h : Heap) (p : Ptr) : Option Block := lookup h.cells p

def size (h : Heap) : Nat := h.cells.length

def remove (h : Heap) (p : Ptr) : Heap := ⟨h.cells.filter (fun x => decide (x.1 ≠ p))⟩

def put (h : Heap) (p : Ptr) (b : Block) : Heap := ⟨(p, b) :: (h.remove p).cells⟩

end Heap

/-- The choice of the addresses by `malloc`. -/
class Allocator where
  pick : Heap → Ptr
  fresh : ∀ h : Heap, h.get (pick h) = none
  nonnull : ∀ h : Heap, pick h ≠ 0

/-- A computation on the memory. -/
def M (α : Type) := Heap → Out (α × Heap)

instance : Monad M where
  pure a := fun h => .ok (a, h)
  bind m f := fun h => match m h with
    | .ok (a, h') => f a h'
    | .err => .err
    | .ub => .ub

def fail {α : Type} : M α := fun _ => .err
def undef {α : Type} : M α := fun _ => .ub

/-- A computation without effect on the memory. -/
def lift {α : Type} (x : Out α) : M α := fun h => match x with
  | .ok a => .ok (a, h)
  | .err => .err
  | .ub => .ub

/-- `malloc` of a block whose content is immediately set. -/
def alloc [A : Allocator] (b : Block) : M Ptr := fun h => .ok (A.pick h, h.put (A.pick h) b)

/-- `free`: undefined for an address which is not allocated; nothing for NULL. -/
def free (p : Ptr) : M Unit := fun h =>
  if p = 0 then .ok ((), h)
  else match h.get p with
    | some _ => .ok ((), h.remove p)
    | none => .ub

/-- Reading the block at an address. -/
def load (p : Ptr) : M Block := fun h =>
  if p = 0 then .ub
  else match h.get p with
    | some b => .ok (b, h)
    | none => .ub

/-- Writing the block at an address. -/
def store (p : Ptr) (b : Block) : M Unit := fun h =>
  if p = 0 then .ub
  else match h.get p with
    | some _ => .ok ((), h.put p b)
    | none => .ub

/-- The number of allocated blocks: a walk along `next` pointers which takes more steps than that never ends. -/
def heapSize : M Nat := fun h => .ok (h.size, h)

/-- `n` iterations of a `for` loop from index `i` on. -/
def forN (body : Int → M Unit) : Nat → Int → M Unit
  | 0, _ => pure ()
  | n + 1, i => do body i; forN body n (i + 1)

/-- C loop `for (i = lo; i < hi; i++) body`. -/
def forM (lo hi : Int) (body : Int → M Unit) : M Unit := forN body (hi - lo).toNat lo

/-! ## Separation logic (specification language) -/

/-- A part of the memory. -/
abbrev PHeap := Ptr → Option Block

/-- A property of a part of the memory. -/
abbrev Assn := PHeap → Prop

def disj (a b : PHeap) : Prop := ∀ x, a x = none ∨ b x = none

def join (a b : PHeap) : PHeap := fun x => (a x).or (b x)

/-- `P ∗ Q`: the memory is made of two separate parts, one with `P`, the other with `Q`. -/
def sep (P Q : Assn) : Assn := fun h => ∃ a b, disj a b ∧ h = join a b ∧ P a ∧ Q b

@[inherit_doc] infixr:65 " ∗ " => sep

/-- No memory. -/
def emp : Assn := fun h => h = fun _ => none

/-- No memory, and a fact. -/
def pur (φ : Prop) : Assn := fun h => φ ∧ emp h

/-- Exactly the block `b` at the non NULL address `p`. -/
def pto (p : Ptr) (b : Block) : Assn := fun h => p ≠ 0 ∧ h = fun x => if x = p then some b else none

@[inherit_doc] infix:70 " ↦ " => pto

def ex {α : Type} (P : α → Assn) : Assn := fun h => ∃ a, P a h

/-- The call `m` in a memory made of `P` and of anything else, `R`, returns normally, the part `P` becomes `Q` of the result, and the
rest `R` is unchanged.  Since `P` and `Q` describe exact parts of the memory, what was allocated is in `Q` and what is
no more in `Q` has been freed. -/
def Triple {α : Type} (P : Assn) (m : M α) (Q : α → Assn) : Prop :=
  ∀ (R : Assn) (h : Heap), (P ∗ R) h.get → ∃ a h', m h = .ok (a, h') ∧ (Q a ∗ R) h'.get

end Osl.Mem
