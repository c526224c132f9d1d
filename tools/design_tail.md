## 5. Heap model

`Verif/Heap*.lean` models the functions which allocate, link and free memory on an explicit heap: a heap maps addresses
to blocks, `malloc` returns a fresh address chosen by an arbitrary allocator, an access to an address
which is not allocated (use after free, double free, NULL) is `ub`.  Predicates of separation logic
(`PHeap`, `∗`, `↦`) say that a pointer heads a structure whose value is a given value of the
value model and which owns exactly the given blocks; `Triple P m Q` says that from every heap made of a part
satisfying `P` and an arbitrary rest, `m` runs without error and undefined behaviour, and changes the
part to one satisfying `Q` and the rest not at all.  A theorem of this form therefore covers leaks (a block
which is not in `Q` does not exist), double frees and sharing.  Loops over linked lists run with a fuel which is the number of blocks of
the heap: a list which is acyclic is always shorter.

## 6. What is modelled of each file

All functions of int.c, vector.c, relation.c, relation_list.c, statement.c, scop.c,
generic.c, interface.c, strings.c, names.c, body.c, util.c, of the extensions of the default registry and of the irregular extension, except
`osl_int_get_d` (floating point).

## 7. Wrong programs

`seeded/b*.py` are batches of mutations of the model, `seeded/run.py` applies each in a scratch copy, rebuilds, and records in
`seeded/LOG.jsonl` which theorems fail and which theorems of the claims depend on them. The theorems tightened after a mutation survived
are listed in its line.
