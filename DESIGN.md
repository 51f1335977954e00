# Formal model of fadhilkurnia/shamir in Lean 4 — design

The status of each property is in MANIFEST.json, the English statements are in properties.jsonl.  This file says how the
code is modelled, how each property is proved, what is trusted and what is left out.

## 1. Approach

* Bytes are `BitVec 8` (Go `uint8`, wrapping).  Go `int` arguments are unbounded `Int`/`Nat` unless the property is
  about overflow (`GalExp`, SplitP's `uint32`, `byte(parts)`, the 32-bit length field of krawczyk).
* A call ends in an `Outcome` (Basic.lean): `ok v`, `err e` (non-nil error), `panic`, `corrupt` (assembly access outside
  its slice) or `spin` (a loop did not finish within the supplied fuel).  Indexing, slicing and division are *checked*
  operations of this monad, so "never panics" is a theorem and not an assumption.
* Loops are `forUp`/`forDown` (same iteration order as the Go loop) or fuel-indexed `while`s.  Theorems about
  termination say which fuel suffices; theorems about divergence say that none does.
* Lookup tables and assembly listings are generated verbatim from /repo (tools/gen_tables.py, tools/gen_asm.py) and
  checked by the kernel against the specification: every entry of every table.
* External code is a parameter, quantified over in every theorem: `math/rand` (a permutation and a byte stream), AES-CTR
  (`Nat → Byte` key stream), the AES block function, `io.Copy` chunking, `klauspost/reedsolomon` (a contract
  with two proved instances: an interpolation code, and the algorithm of the package itself, C73).
* Three levels, connected by refinement theorems:
  1. **value level** (`Model/{Galois,Vector,Polynomial,Shamir,Krawczyk,Worker,Csprng,Randomizer,Pool}.lean`): slices are
     lists, calls are functions to `Outcome`;
  2. **heap level** (`Model/Heap.lean`, `Model/SplitP.lean`): slices are windows (array, offset, length, capacity) of one
     shared heap, calls are programs whose individual byte accesses, allocations, pool operations and draws of
     randomness are interleaved arbitrarily by any number of goroutines; `SplitP` exists at this level only;
  3. **machine level** (`Model/Asm.lean`, `Tables/Asm.lean`, `Model/AsmCalls.lean`): the assembly routines, instruction
     by instruction, on a register machine with byte-addressed memory.

## 2. Layout

    Verif/Basic.lean           Outcome monad, loops, slices
    Verif/Tables/*.lean        generated: lookup tables, assembly listings
    Verif/Model/*.lean         the model; each definition cites file and lines of /repo
    Verif/Spec/*.lean          independent specification (field GF(2^8) as a quotient ring, sharings, views, counting,
                               heaps and footprints, histories, Reed-Solomon contract)
    Verif/Proofs/*.lean        helper lemmas and refinements
    Verif/Props/*.lean         property theorems `Cnn_...`, each followed by an example meeting its hypotheses
    seeded/                    wrong programs tried against the theorems (batch*.py) and LOG.jsonl
    tools/                     generators: tables, properties.jsonl, MANIFEST.json, mutation runner, axioms.sh

## 3. How each property is proved

| id | modelled | proof |
|----|----------|-------|
| C01 | mulTable, GalMultiply | all table entries by kernel evaluation = shift/xor multiplication; that = product mod x^8+x^4+x^3+x^2+1 in (ZMod 2)[X] (uniqueness of the residue) |
| C02, C03 | log/exp tables, GalDivide, GalExp, shamir's div and mult | exp[i]=2^i, exp[log a]=a by kernel; rest field algebra; exact overflow analysis of int arithmetic in GalExp |
| C04 | GalAdd, GalMultiply, invTable | transported from the quotient ring; inverses by kernel |
| C05–C07, C51 | vector_*.go, vector_*.s | level 1: block lemmas per register, induction on the number of blocks; level 3: loop invariants on the machine, for every placement, register content and alignment; level 3 refines level 1 |
| C08–C10, C12, C13, C16, C47 | Split, SplitGeneric, SplitWithRandomizer(Old), Combine | model refined to polynomial evaluation; Lagrange interpolation (Mathlib) |
| C11, C13, C17, C48 | SplitP at heap level: one goroutine per chunk, shared random source | invariant over the steps of any schedule; `uint32` arithmetic exact; termination measure |
| C14, C15, C18–C20 | Combine, interpolatePolynomial | closed form of the interpolation, `div` never reached with 0 |
| C17, C18 | Split/SplitGeneric/SplitP with the random filling ranging over all `Fin m → Byte` | bijection between fillings (adding a polynomial that vanishes on the view) |
| C21 | pools as state with stale contents | the result is a function of (secret, parts, threshold, randomness) |
| C22–C25 | Regenerate, with fuel for the dedupe loop | interpolation; pigeonhole for non-termination |
| C26–C28 | csprng.go | the swap loop is a permutation; exact analysis of panics and divergence |
| C29–C32, C43, C44 | SplitWithRandomizer, randomizer.Perm, krawczyk.SplitWithRandomizer | the negation of the expected property, proved for all inputs |
| C33, C34 | bufferpool.go and all calls at heap level | invariants over all histories and interleavings |
| C35–C42, C45 | krawczyk.go, aes.go | via C08/C09 for the metadata and the Reed-Solomon contract for the data |
| C46 | worker.go | corollary |
| C49, C50, C52 | heap level: headers (array, offset, len, cap), Go's `append` | separation/footprint arguments; exact set of stored-to cells |
| C53 | krawczyk.Combine with capacities | same results for every capacity ≥ length that leaves the value level unchanged; exact exceptions |
| C54 | histories: fork-join batches of calls over one heap and one pair of pools | induction on the history, C34 for each batch |
| C55 | secrecy of krawczyk.Split: fewer than k shares (payload + key share) | the view determines the ciphertext shards and key-share view only (`kView_iff`); key view via C17: every key equally likely given the view |
| C56, C57 | NewCSPRNG, NewCSPRNGWithKeyIV, NewRandomizer, CTR keystream | counter-mode model (Model/CtrMode.lean) over an arbitrary block function; `aesctrat`/`crypto/cipher` CTR enter as their documented behaviour; keystream offsets by induction, big-endian increment with wrap-around |
| C58 | Regenerate on a set of Split's shares | layout secrecy on the extended tag list (old tags with the regenerated one), through `regenerate_cShares` |
| C59 | krawczyk.Split, then Combine on shares with changed shards | value model; follows C35, with the shards of the data shares replaced; OFB and the concatenation of shards commute with adding masks |
| C60 | main.go | `Model/Main.lean`: lines printed and kind of exit; loops with fuel, termination by induction on the number of doublings |
| C61 | every call of C34 | structural predicate `Draws` on programs (result and bytes drawn, whatever memory contains), combined with the ownership logic; specification `Spec/Draws.lean` (`Consumes`, `Redraws`) |
| C62 | programs (`Spec/Async.lean`): a transition system in which the client allocates, stores into known memory outside arguments of running calls, makes calls at any time and takes their results | the world invariant of C11/C34 generalised to calls with different start heaps (`AInv`); client memory is owned by an idle process; measure: multiset of ranks of calls |
| C63 | `Regenerate` with the tag bytes `stream ρ` for all `ρ : Fin n → Byte` | C23 (tags are the raw bytes), C24 (returns), C25 (tag 0 is the secret), then counting functions and embeddings |
| C64 | `krawczyk.Combine` on shares `tamperMeta share mask`; `Δ` is what `shamir.Combine` returns for the masks | C20 (linearity) for the metadata, the Reed-Solomon part as in C35; a single mask is the wanted difference divided by the (non-zero) Lagrange weight |
| C65 | `Worker.Combine` of the other algorithm | krawczyk: shares are equally long with distinct last bytes, interpolation through a point at 0; shamir: first share is shorter than 21 bytes, C40 and C53 |
| C66 | heap level: `Join` loads the shards after the stores of `ReconstructData`, from wherever they are | invariant as for C52; what `Join` finds is the shards plus a mask, and the result then is the secret plus the mask |
| C67 | all calls at heap level, and programs (C62) | structural predicate `Keeps` on programs (buffers in hand, whatever memory contains), summed over the calls as an invariant.  A panicking call keeps its buffers in the model; in Go its deferred `Put`s still run |
| C68 | programs (C62) restricted to one call at a time, related to the sequential model with explicit pools | exact weakest precondition `solo` of a program that runs alone (Proofs/Solo*), shown for every function that uses the pools; the others leave the pools alone (`Keeps 0 0`); invariant over the run of the program |
| C69 | AddVector of all builds on one memory (Model/VectorMem): both slices are address ranges, every load sees every earlier store, the assembly executed | invariant over the blocks (`Good`): what the first k bytes of b contain in terms of the blocks they belong to; the loop bodies of C06_machine need no assumption about overlap |
| C70 | the calls with randomness indexed by a state `z : σ` of the source; `math/rand` itself (Model/MathRand: Seed, Uint64, Int31n, Perm, Read) for the seed; `Candidates` (Spec/Seeds) | closed forms of the shares (C17); the state and a share determine the secret, hence an injection from candidates into states; counting byte strings; `Seed` factors through a number in 1..2^31-2 |
| C71 | `Split`, `SplitGeneric` with their draws from `math/rand` (Model/MathRand.split, splitGeneric), followed by any uses of the source | `threshold` values determine a polynomial of degree < threshold, hence all random bytes of the call except those at multiples of the threshold; the generator satisfies x(n+607) = x(n) + x(n+334) mod 2^64, so the lower 8b bits of two runs agree for all n if they agree outside a residue class below 1214 (induction on b); simulation `Sim` of two sources |
| C72 | AES itself (Spec/Aes.lean: FIPS 197, checked against its appendix C) in place of the arbitrary block function of C41, C56, C57 | SubBytes by an explicit inverse (all 256 bytes), MixColumns by linearity of `xtime` (its fourth power is the identity), ShiftRows and AddRoundKey directly: the cipher is injective on blocks for every expanded key; a permutation of a finite set is periodic at every point |
| C73 | the algorithm of klauspost/reedsolomon (Model/Vandermonde.lean: Vandermonde matrix made systematic, Gaussian elimination; from the published algorithm) and AES together, in place of the contract of C35–C46 and the arbitrary block function | `invert` is a right inverse for every matrix with trivial kernel (invariant of the elimination: the kernel stays trivial, solutions are kept); a Vandermonde matrix has trivial kernel (a polynomial of degree below k with k roots is 0); so row r of the matrix evaluates the polynomial through the data at r, and any k rows are invertible |
| C74 | observations of an attacker who sees branches, iterations and addresses: of the assembly (Spec/Leak.lean: the blocks executed and addresses accessed), and of Split, Combine, SplitWithRandomizer, SplitWithRandomizerOld, SplitGeneric, Regenerate and single goroutines of SplitP (Model/Leak.lean, Model/LeakCalls.lean, Model/LeakRest.lean: their functions again, in a monad that records every condition, loop count, slice position, table entry, map key and call of a routine) | assembly: a checker of which registers and flags are public (`decide`), sound for every pair of runs that agree on these (induction on steps); Go: erasing the observations gives the functions of the other properties; two runs are compared by rules for sequence, condition and loop, with an exact condition for equal traces: the Horner accumulators agree on the looked-up positions iff all coefficients but the constant ones do |
| C75 | `newWorker` (Model/Worker.lean) on top of `newCSPRNG`; Worker.Split with arbitrary pools at each call, so that any two calls in a worker's life can be compared | GetUniqueBytes for a smaller number returns a prefix (induction on the loop); the conditions of C28/C37 under which a call returns do not mention pools, secret or threshold; C43/C44 for the key; counting of seeds as in C70 |
| C76 | a game (Spec/Game.lean) played with the modelled Split, SplitGeneric and Regenerate: calls, looks at shares and secrets chosen by functions of all sights so far, one random stream, pools handed from call to call | conditions on shares looked at later are moved to the call that makes the shares; the number of fillings is then a product over the calls, each factor the same for both secrets by the counts of C17/C21 (induction on the sights); Regenerate keeps every share on the sharing's polynomials and how it ends depends on lengths and tags only; existence and uniqueness of a sequence of sights by induction on its length |
| C77 | `CSPRNG.perm`; Worker.Split as in C75 | invariant of the shuffle loop: entry 0 is written by the first swap only, entry n-1 by the first two at most; C43/C44 for the key |
| C78 | split, splitGeneric, combine, regenerate with the secrecy layouts of C17 | shifting one payload byte by the inverse of its Lagrange weight shifts the result, so the fibres of Combine over the fillings are equally large (bijections of fillings); Regenerate by the uniqueness of interpolation (C16, C22) and then C18; chains of Regenerate by induction (C22_chain) |
| C79 | combine, split, the log table; shares over the other field by a specification (Spec/Vault.lean, with the multiplication of Spec/Aes.lean): nothing of Vault is modelled | convert is an isomorphism of the two fields (bitwise linear, commutes with multiplication by x); two shares: the error is additive in the coefficient and not zero, so its kernel has at most 128 elements; all shares: sums of powers over a finite field; Props/Vault.lean |
| C80 | krawczyk's Split, SplitWithRandomizer and Combine with the observations of C74 for the calls into package shamir (Model/LeakKrawczyk.lean); AES, Reed-Solomon coding, argument checks and copying show nothing in this model | erasing the observations gives the functions of the other properties; an accepted call shows what the Shamir call on the 20 bytes of metadata shows, to which C74 applies; the first `threshold` shares are pieces of the ciphertext; Props/LeakKrawczyk.lean |
| C81 | lists that differ from shares given in at most e places (Spec/Errors.lean); all choices of threshold shares among threshold + e | threshold + e of the received shares contain threshold correct ones, which combine to the secret (C08–C10, C35); the limits follow from secrecy (C17): at any threshold - 1 positions the shares of a run are those of a run with any other secret; Props/Errors.lean |
| C82 | package shamir once more with all sizes and positions in wrapping integers of `w` bits (Model/Word.lean) | where the largest product fits nothing wraps, and each function equals its model with unbounded integers; otherwise the first window of the (too small) array that does not fit is refused by the bounds check, since a window is smaller than 2^(w-1); package krawczyk likewise (Model/WordKrawczyk.lean): its limit of 2^32-1 bytes keeps all sizes below 2^41; SplitP (Model/WordSplitP.lean): only the length of one share can overflow, and with 32 bits the lengths of C48 do not exist; Props/Word.lean |
| C83 | the game of C76 with one more move, a call of the modelled krawczyk.Split, whose key is given separately (Spec/KGame.lean) | for a fixed sequence of sights the game is the one of C76 in which the 20 bytes of metadata are split: a krawczyk share is a share of these followed by a string that depends on the ciphertext only; for perfect encryption a bijection of the keys of each call; Props/KGame.lean |
| C84 | what a client does with the exported arithmetic on payloads (Spec/Computing.lean); the modelled Split, Combine, MulConstVector, AddVector, GalMultiply | Combine evaluates at 0 any polynomials of degree below the number of shares through them; for t+t'-2 products such polynomials are f*g minus the leading coefficient times the nodal polynomial; refreshing: the coefficients add up, and a shift for each epoch (a polynomial with the difference of the secrets at 0 that vanishes on the tags seen) is spread over the calls |
| C85 | the modelled Split and SplitGeneric; which bytes of which shares are known is a family of sets of positions, one for every byte | as C17, with a mask polynomial for every byte: zero where the secrets agree, otherwise one that vanishes at the tags known for that byte; the converse by uniqueness of interpolation |
| C86 | Spec/Nested.lean: trees of calls of the modelled Split, each with fresh random bytes; which groups are qualified; recovering by the modelled Combine | induction on the tree: a bijection of fillings under which an unqualified group holds the same: at the top the one of C17 that keeps the available shares (fewer than threshold), below it those of the induction hypothesis, which depend on the shares; recovery by C08 at every node |
| C87 | Model/LeakCsprng.lean: Perm, GetUniqueBytes and Perm of randomizer again with observations (AES shows nothing) | the trace of a run that returns in closed form; two closed forms compared from the left; residues modulo 255-i leave at most two bytes for i < 127; consequences by C43/C44 (key of krawczyk) and the payload formula of SplitWithRandomizer |
| C88 | Spec/Work.lean: steps of the runs with observations (Model/Leak, LeakCalls, LeakRest, LeakCsprng, LeakKrawczyk); the pools, math/rand and crypto/rand, the allocator, AES and Reed-Solomon coding are not counted | rules for sequences, branches and loops: at most n steps, and exactly n on success (`Within`); distinct tags are at most 256 |


## 4. Trusted base

* Lean's kernel (4.33.0) and Mathlib's definitions.  Axioms: `propext`, `Classical.choice`, `Quot.sound`, no others, and
  none of our own; `tools/axioms.sh` prints them per theorem.  No theorem uses compiled evaluation.
* The faithfulness of the reading of the Go and assembly code.  Each definition cites the lines it models, and says where
  it simplifies.  The simplifications are collected in section 5.
* The semantics of Go used: order of evaluation in the modelled statements, bounds checks, `append`, nil slices, map
  lookups, wrapping unsigned arithmetic, `select` with default, `sync.WaitGroup`, `bytes.Buffer` (`Reset`, `Grow`,
  `Bytes`), 64-bit `int` (C82 is about any width).
* The meaning of about 30 amd64/arm64 instructions, as in the Intel SDM / Arm ARM (`Model/Asm.lean`).

### Modelled

| file | what |
|------|------|
| galois/galois.go, tables.go | every function and table |
| galois/vector.go, vector_noasm.go, vector_amd64.go, vector_arm64.go | everything, for all combinations of the cpuid flags |
| galois/vector_amd64.s, vector_arm64.s | every routine, including the unused fused multiply-add ones |
| shamir/shamir.go, polynomial.go, tables.go | every function |
| csprng/csprng.go, randomizer/randomizer.go, utils/bufferpool.go | every function; seeding: see below |
| krawczyk/krawczyk.go, aes.go | every function |
| worker/worker.go | every function |
| main.go | every function (C60), except durations |

### Not modelled

* The durations `main.go` measures and prints, and the ciphertexts it throws away; `cli/cli.go` (an empty `main`), the tests
  and benchmarks, `data/`.
* `rand.Seed(time.Now())`: which bytes `math/rand` delivers is arbitrary in every theorem except C70_time_seed, C70_perm, C75_few_workers
  and C71, where `math/rand` is modelled (from Go 1.17; with the table `rngCooked` arbitrary; the sources of Go are not in
  the sandbox, so this model is part of the trusted base of these theorems only).  Secrecy (C17, C18) is about fillings drawn
  uniformly, which `math/rand` does not do: see C70, C71 for what that means.
* How `crypto/aes` and `aesctrat` compute AES (it is an arbitrary block function, and in C72 the function of FIPS 197).
* Side channels other than branches, iterations, and the addresses used by Split, SplitWithRandomizer,
  SplitWithRandomizerOld, SplitGeneric, the goroutines of SplitP, Combine, Regenerate, the calls of these by krawczyk, the assembly (C74, C80), CSPRNG.Perm, GetUniqueBytes and Randomizer.Perm (C87; C74 and C80 take the calls of these as silent): the code the Go
  compiler makes (it may compile the selections `subtle.ConstantTimeSelect` otherwise), the allocator, the pools,
  `math/rand`, AES and the other entry points; power, speculation.
* Memory exhaustion and `bytes.ErrTooLarge`; sizes that overflow `int` outside C82 (`Combine` and `Regenerate` compute no
  products).  Package krawczyk does not compile on 32-bit platforms
  (`len(secret) > math.MaxUint32` overflows `int`), so 64-bit `int` is all there is for krawczyk and worker.

## 5. Simplifications

Value level
* `Regenerate` folds the assignment of x_samples (shamir.go:473-475) into `collectTags`.
* krawczyk.Combine assumes cap = len for the shares; `combineCap` removes this (C53); the *contents* beyond the length are
  represented only at heap level.
* klauspost/reedsolomon (source not available): `New`, `Split`, `Encode`, `ReconstructData` per documentation:
  argument checks, which shards are touched, and a contract (`parity_length`, `missing_length`, `recovers`).  Whether `New`
  accepts zero parity shards is a parameter (it changed between releases); the bytes `Split` pads with are arbitrary
  (it may reuse stale capacity); 3-index slices separate the shards.
  `Spec/ReedSolomon.lean` proves the contract for an interpolation code, `Proofs/Vandermonde.lean` for the package's
  algorithm as published (`Model/Vandermonde.lean`; its options and its cache of inverses are left out).

Heap level
* Interleaving of single byte accesses, sequentially consistent.  Data-race freedom is proved (C11, C34), so by the Go
  memory model the weaker orders of the hardware are not observable.
* In the vector kernels all loads of a call precede its stores (they write private memory).
* Memory private to one goroutine that never escapes is a value: ciphertext, shards and key of krawczyk, polynomials of
  SplitGeneric, the coefficients, xCoordinates and output headers of SplitP.  The tags of the randomizer variants are
  computed in one step (the CSPRNG is never modified).
* After a panic other goroutines may go on (a superset of Go's behaviour, where the process dies).
  Combine, Regenerate and krawczyk.Combine load the bytes of their parts in program order (krawczyk.Combine: the index
  bytes, then the metadata, then the payloads).  Panics of krawczyk.Combine and Regenerate are results, not aborts, so that theorems about histories can mention them.
* `ReconstructData` writes into the spare capacity of zero-length shards, as its documentation says (C52); `Join` loads the
  shards from memory after that (C66).  All missing shards are computed before the first is stored: for shares that overlap
  in other ways than in C66 (where the stores trail the loads) the library, which interleaves loads and stores, may compute
  other bytes.
* Histories (C54): batches of concurrent calls, joined before the next batch; the client allocates memory and passes
  slices but does not write to memory a call returned.  C62 has neither restriction: calls start at any time and the client
  stores anywhere in its memory except into arguments of running calls; as in C34, krawczyk.Combine is not given shares
  without payload next to complete ones (see C52 for those).

Machine level
* Flags ZF (amd64) and N (arm64) only, no other flag is tested.  Upper register halves are tracked as far as read.
* A misaligned MOVOA is a fault (`panic`); any access outside the argument slices and tables is `corrupt`.
* Addresses are below 2^63.  Input and output of the routines do not overlap in C05-C07 and C51; C69 is about AddVector on
  slices that do (the memory model there: capacity = length).

## 6. Findings (code that differs from what a user would expect; each is a theorem)

* C07: `AddVector` with slices of different lengths writes outside its slice or stops short on assembly builds.
* C11/C48: `SplitP` with secrets of at least 2^32-1023 bytes panics or returns truncated shares.
* C23/C24: Regenerate may return duplicate tags (raw random bytes), tag 0 (the secret itself, C25), or never return.
* C26: `CSPRNG.Read` never advances: all reads return the same key stream, xored into the buffer.
* C27/C28: `Perm` panics for some n and streams; `GetUniqueBytes` may loop forever.
* C29–C31: SplitWithRandomizer leaks: tag 0 shares, identical masks for all secrets, tags that are coefficients.
* C32: `Randomizer.Perm` does not return permutations.
* C40: krawczyk.Combine panics on short or ill-indexed shares, on an empty list and on negative `parts`.
* C43/C44: krawczyk.SplitWithRandomizer uses one encryption key for all secrets, and the tags spell that key out.
* C59: krawczyk shares are not authenticated: changed shards change the secret unnoticed.
* C60: measureEncryptionLatency("", ...) never ends.
* C49: appending to a share returned by Split overwrites the next share (capacities overlap).
* C52: krawczyk.Combine overwrites bytes behind shares without payload.
* C64: the metadata of krawczyk shares is not authenticated either: one share suffices to truncate the secret.
* C65: shares combined under the name of the other algorithm: a result without meaning, or a panic.
* C66: a share without payload directly in front of another share in one buffer makes krawczyk.Combine return a wrong
  secret without an error.
* C69: `AddVector(x[:n], x[d:d+n])` with 0 < d < 64 can have different results on different builds.
* C70: math/rand is seeded with one of 2^31-2 values, so one share and a search over them reveal a secret.
* C71: whoever sees `threshold` shares of one secret of some kilobytes can compute the random bytes of all later calls of
  Split and krawczyk.Split in that program, and read their secrets from single shares.
* C74: despite the comments in polynomial.go, table lookups show the operands of `div` and `mult` to an observer of the cache, hence
  all shares given to Combine; Split's lookups show the coefficients for the last bytes of the secret (all bytes without assembly,
  and with SSSE3 alone whenever the length is a multiple of 16, because the assembly's result is then computed a second time).
  Because SplitWithRandomizer adds the key stream to whatever its recycled buffer holds, its lookups also show bytes of the secret
  split before, with the same threshold and length, to whoever knows the key stream (C74_splitWithRandomizer_history).
* C80: krawczyk's metadata are too short for the vector routines: an observer of the cache with one share learns the encryption key, and the key of SplitWithRandomizer shows most of itself without any share (C80_splitWithRandomizer_key).
* C81: with threshold + 2e shares, e corrupted ones can be tolerated by combining choices of them, although `Combine` gives no help; with fewer, nothing can.
* C75: the tags of shares that a Worker makes with "shamir" give away the key of all its "krawczyk" splits; a Worker that panics or
  hangs once for some number of shares does so always.
* C82: secrets whose shares together have 2^31 bytes or more make the splitting functions panic on 32-bit platforms (SplitGeneric:
  whose coefficients have; SplitP: 2^31-1 bytes), without an error, but never give wrong shares.
* C77: `CSPRNG.Perm` never returns a permutation that begins with 0 and nearly always one that ends with n-1; its first entry is a byte
  of the key stream.
* The field is 0x11d, not the one (0x11b) of the HashiCorp package the README compares with and whose share format is kept: shares of one read by the other give wrong results without an error (C79). The comment of shamir/tables.go on the generator 0xe5 is a left-over of that package: the tables are to the base 2 (C79_tables_base).
