import json
P=[json.loads(l) for l in open('/verif/properties.jsonl')]
plan={
"C01":"Model flatten/unflatten as folds over the component list; two round-trip theorems and the range bound by induction on the shape.",
"C02":"Model operator++ and the begin/end loop with fuel; prove the visited list is the list of unflattenings of 0..prod-1. Zero inner extent: negation with witness.",
"C03":"Model the while loop over (array, indices) with a fuel-free well-founded measure (number of unfixed indices); invariant over partially applied cycles; result = gather.",
"C04":"List recursion; prove decode (encode l) = l, lengths >= 1, neighbours not mergeable.",
"C05":"Model Choose::next on lists; prove the trace equals the lexicographic list of subsets; binom = Nat.choose.",
"C06":"Model marker odometer; prove visited list = all tuples, no duplicates.",
"C07":"Lehmer code as List; factorial number system; injectivity by reconstruction; bound < N!.",
"C08":"UInt64/BitVec arithmetic loop with fuel; closed form mod 2^64; non-termination theorem for to = 2^64-1.",
"C09":"Byte-address model of allocate (std::align semantics of the standard); history induction.",
"C10":"BitVec 64 fold; keyword table by kernel decision.",
"C11":"Loop over an arbitrary linear ordered field (exact arithmetic, eps a parameter); bracket invariant; termination by Brent's halving argument.",
"C12":"Model translate over an association-list table; independence of fields; error cases explicit.",
"C13":"Stride computation and offset maps as list functions; injectivity/compactness; view laws.",
"C14":"Index arithmetic; binary/hash lookup modelled as a map from index list.",
"C15":"Arithmetic; sums of a list.",
"C16":"Two while loops on an offset list; loop invariants; div-by-zero guard explicit.",
"C17":"All-ranks model: matrix of messages; MPI_Alltoallv semantics is an assumed primitive written from the MPI standard.",
"C18":"All-ranks model of plans built from LocalFaces; messages matched per (source,dest) pair.",
"C19":"BitVec/Nat sets of CPUs; text form via run list.",
"C20":"Sorted vertex arrays; equality iff same vertex set; faces via Choose.",
"C21":"All-ranks model of doPartition's enumerate/sort/send loop; multiset preservation.",
"C22":"All-ranks model of the hash-rank rendezvous; uniqueness and agreement theorems.",
"C23":"All-ranks model of ghost computation from CSR adjacency.",
"C24":"Structure of parallel arrays; permute model; negation if an array is forgotten.",
"C25":"Lists of downward faces; upward built by scattering; iff theorem.",
"C26":"Distribution of flat index range + unflatten; concatenation theorem.",
"C27":"Parity case analysis for all cell indices.",
"C29":"Binary search (upper_bound) over the sorted boundaries.",
"C31":"List model of the constructor loops.",
"C32":"Model DGOperatorTopo neighbour counting, preallocation and assembly loops; counting equality.",
"C33":"Trace model of apply with an explicit 'ghost arrived' flag; ghost read before wait is an error outcome.",
"C34":"Lexer state machine over a byte list; non-termination shown as a fixed point; positive round trip.",
"C35":"Parser over token lists.",
"C36":"Builder over element lists.",
"C37":"Lookup over tag arrays.",
"C38":"File as character list with a put position; history induction.",
"C39":"Array update loop running backwards; index algebra.",
"C40":"Fold over arrays with running offset against the concatenated byte string.",
"C41":"All-ranks reduce (MINLOC semantics assumed).",
"C42":"Prefix sums; dataset as function of (time,row).",
"C43":"State machine; induction over histories.",
"C44":"Filesystem state machine with crash at every step.",
"C45":"Filesystem state machine with crash at every step.",
"C46":"Arithmetic/list functions.",
"C47":"Real analysis in Mathlib (exact arithmetic).",
"C48":"State machine with a ghost 'computed-at' tag.",
"C51":"Prefix sums over ranks.",
"C54":"Recurrence over a field; induction on n.",
"C55":"Polynomial identities in exact arithmetic.",
"C56":"Binomial coefficient monotonicity.",
"C58":"Linear algebra over a field, by dimension.",
"C60":"Newton loop with arbitrary map; postcondition.",
}
out=[]
out.append("""# DESIGN

Formal model in Lean 4 (with selected Mathlib modules) of TEAR-ERC/tandem, pinned commit in /repo.

## Layout

* `lean/Verif/Model/*.lean`  - executable model of the code; every definition cites file and lines in /repo.
* `lean/Verif/Spec/*.lean`   - small independent specifications (what the English property says).
* `lean/Verif/Lemmas/*.lean` - helper lemmas, not part of the claims.
* `lean/Verif/Props/*.lean`  - the property theorems, with non-vacuity examples beside them.

## Trusted base

* Lean's kernel (4.33.0) and the standard axioms `propext`, `Classical.choice`, `Quot.sound`. No own axioms, no native evaluation.
* Faithfulness of the model: read by hand from the source, cited line by line; the C++ is not executed.
* Machine integers are modelled as `Nat`/`Int` unless the property is about wrap-around (stated per definition); floating point is modelled by exact arithmetic in an ordered field or the reals, so rounding is outside every claim.
* Library semantics (MPI collectives, POSIX rename/write, std:: algorithms, HDF5, PETSc) are modelled from their documentation and listed per property.
* Undefined behaviour, exceptions and non-termination are distinct outcomes of the model.

## Per-property plan
""")
for x in P:
    out.append(f"* **{x['id']} {x['title']}** - {plan[x['id']]}")
open('/verif/DESIGN.md','w').write('\n'.join(out)+'\n')
json.dump({"claims":[]},open('/verif/MANIFEST.json','w'))
