# Formal model of the OpenScop library (osl) in Lean 4

## 1. Approach

The C code of `/repo/source` is modelled function by function as total, computable Lean
functions.  A call returns an outcome `Out α` (`Verif/C.lean`):

* `ok a`: normal return;
* `err`: `OSL_error`/`OSL_overflow` was called (message and `exit(1)`);
* `ub`: undefined behaviour was executed (signed overflow, division by zero, NULL or
  out-of-bounds access, non terminating recursion, overrun of a fixed buffer).

A theorem which says that a call returns `ok x` hence also says that no error and no undefined
behaviour happened on the way.  The build configuration is a parameter `Cfg` of the integer
functions and of everything above: GMP or not, `NDEBUG` or not, width of `long`, and whether
signed overflow is undefined (ISO C) or wraps (`-fwrapv`); theorems hold for every configuration
unless they say otherwise.

Each source file has a model module (`Verif/<File>.lean`), and its property theorems are in
separate modules (`Verif/<File>Props*.lean`).  Specifications (point sets of relations,
`Verif/RelSpec.lean`; association maps; divisibility; stacks; ...) are small definitions of their
own.  Every definition of the model cites the lines of `/repo` it models
(`tools/check_cites.py` verifies that the cited ranges exist and hold the function named).

Many of the properties one would first write down are false of the code at some edge.  For these, properties.jsonl
keeps the first version as `ideal`, and `statement` says what holds for *all* inputs of the quantifier, naming the exact
exceptions and what the code does there; the theorems of MANIFEST.json prove the statement (`..._cases`, `..._iff`), and
refute the ideal on a concrete witness or in general (`..._violates`, listed in section 8).  The note of the claim says
which theorem does what.  A theorem named `..._partial` covers only part of an ideal.  Status `proved` is about `statement`.

## 2. Representation choices

* Linked lists (`next` fields) are Lean lists in list order, `NULL` is `[]`; a pointer to one
  structure is an `Option`.  A function which mutates through a pointer returns the new value.
  This value model has no addresses: it describes calls on structures which share no memory.
  The pointer-equality shortcuts of the `equal` functions (`if (a == b) return 1`) are therefore not
  taken in the model; they are covered by reflexivity where it is proved.
* Addresses, allocation and freeing are the subject of the heap models (`Verif/Heap*.lean`, section 5), which are
  connected to the value model by an abstraction relation.
* An `osl_int_t` is the integer it holds; `InPrec` says that it is representable.  GMP integers
  are unbounded.
* Matrices are lists of rows; an access outside of the allocated rows and columns is `ub`.
* Characters are Unicode scalar values used as bytes, strings are lists of characters without
  terminator.  Buffers have their C size and an overrun is `ub` (`OSL_MAX_STRING` = 2048,
  `include/osl/macros.h`).
* `sscanf`, `sprintf`, `strcmp`, `strtok`, `isspace`, `fgets` are modelled at character level
  with the documented behaviour; `%s` of NULL prints `(null)` as in glibc for the loop extension and the
  language of a scop (whose reader relies on it), and is `ub` elsewhere.
* `void*` data of generics: first an arbitrary type with an arbitrary meaning of the function
  pointers (`Env`), then the sum type `Data` of the 18 extensions of the default registry
  (`Verif/Library.lean`); the symbols extension holds generics, so `DataAt n` is indexed by the
  nesting depth and theorems hold for every depth.

## 3. Trusted base

* Lean's kernel.  No axiom of our own; every theorem depends on a subset of `propext`,
  `Quot.sound`, `Classical.choice` (checked over all constants of the namespace).  No
  `native_decide`, no `bv_decide`, no unfinished proof.  `decide`/`decide +kernel` are used only for
  concrete witnesses and finite case analyses.
* The reading of the C code, cited line by line, and the simplifications said in the comments.
* The meaning of C integer operations as defined in `Verif/C.lean`, GMP's and libc's documented
  behaviour.

Not modelled: `malloc` failure (`malloc(0)` returns a valid pointer), stream and file-system errors, warnings and debug messages
(`OSL_warning`, `OSL_info`, `OSL_debug` do nothing), `osl_int_get_d` (floating point), the `usr` pointers.  In the display functions
(`Verif/Dump.lean`) the overflow of the level and of the node numbers is not modelled.

