#!/usr/bin/env python3
"""Writes /verif/properties.jsonl.  (The list itself lives here so that it is easy to append to.)"""
import json, os
P = []
def p(title, statement, quantifier, why, anchors):
    P.append(dict(id="C%02d" % (len(P)+1), title=title, statement=statement, quantifier=quantifier,
                  why_tests_cant=why, anchors=anchors))
G="galois/galois.go"; GT="galois/tables.go"; AM="galois/vector_amd64.go"; AS="galois/vector_amd64.s"
AR="galois/vector_arm64.go"; ARS="galois/vector_arm64.s"; NO="galois/vector_noasm.go"; VG="galois/vector.go"
S="shamir/shamir.go"; PO="shamir/polynomial.go"; ST="shamir/tables.go"; CS="csprng/csprng.go"
RA="randomizer/randomizer.go"; PL="utils/bufferpool.go"; K="krawczyk/krawczyk.go"; KA="krawczyk/aes.go"; W="worker/worker.go"
# ---- Galois
p("GalMultiply is multiplication in GF(2)[x]/(x^8+x^4+x^3+x^2+1)",
  "GalMultiply(a,b) returns the residue of the product of the two bytes, read as polynomials over GF(2), modulo x^8+x^4+x^3+x^2+1. The multiplication table of the shamir package is the same table.",
  "every pair of bytes (a,b)", "existing tests never call GalMultiply; a wrong table entry shows only for particular byte pairs and random coefficients",
  [G+":GalMultiply", GT+":mulTable", ST+":mulTable"])
p("Log/exp multiplication and division agree with GalMultiply; division is its inverse and panics exactly on a zero divisor",
  "GalMultiplyLogExp(a,b)=GalMultiply(a,b). For b!=0, GalDivide(a,b) is the unique q with GalMultiply(q,b)=a; GalDivide(a,0) panics iff a!=0 and GalDivide(0,0)=0. The private div/mult used by Combine satisfy the same laws, div panics iff b=0.",
  "every pair of bytes", "table driven: each of 65536 pairs exercises another combination of entries",
  [G+":GalMultiplyLogExp", G+":GalDivide", PO+":div", PO+":mult"])
p("GalExp(a,n) is the n-fold product of a",
  "For every n>=0 (with log(a)*n not overflowing int64) GalExp(a,n) equals a multiplied with itself n times (1 for n=0). For n<0 it panics unless a is 0 or 1 (then 0 and 1). In general, for a = 2^l (l<255), w being l*n in 64-bit two's complement: w<0 panics, otherwise the result is 2^w.",
  "every byte a and every integer n", "n is unbounded; tests never call it", [G+":GalExp"])
p("The exported arithmetic forms a field",
  "GalAdd/GalMultiply are commutative and associative, multiplication distributes over addition, 0 and 1 are neutral, GalSub inverts GalAdd, every non-zero byte has a multiplicative inverse (the invTable entry) and there are no zero divisors.",
  "all triples of bytes", "2^24 triples per law; none is tested", [G+":GalAdd", G+":GalSub", G+":GalMultiply", GT+":invTable"])
p("MulConstVector is elementwise multiplication on every architecture and CPU",
  "MulConstVector(c,in) returns a vector of the same length whose i-th byte is GalMultiply(c,in[i]), whichever of AVX2, SSSE3, NEON or pure-Go paths runs, and never panics or writes outside its buffers.",
  "every constant, every vector of every length, every CPU feature combination, amd64/arm64/noasm",
  "a test machine has a single CPU feature set, and block/tail boundaries need every length", [AM+":MulConstVector", AS+":galMulSSSE3,galMulAVX2,galMulAVX2_64", AR+":MulConstVector", ARS+":galMulNEON", NO+":MulConstVectorGeneric", VG+":MulConstVector"])
p("AddVector is elementwise GF addition on every architecture and CPU",
  "For equal lengths AddVector(a,b) returns a vector whose i-th byte is a[i] xor b[i], on SSE2, NEON, generic and 32-byte-batch paths, and never panics or writes outside its buffers.",
  "every pair of equal-length vectors, every CPU feature combination, amd64/arm64/noasm", "block/tail boundaries need every length; one machine runs one path",
  [AM+":AddVector", AS+":sSE2XorSlice,sSE2XorSlice_64", AR+":AddVector", ARS+":galXorNEON", NO+":AddVectorGeneric,AddVectorBatchGeneric"])
p("AddVector on vectors of different length: pure Go panics, assembly builds overrun or stop short",
  "With len(a)!=len(b), the pure-Go AddVector panics. The assembly builds do not check (a user would expect the same panic): when the first vector is longer the assembly reads and writes beyond the end of the second one; when it is shorter the tail is silently left as is.",
  "every pair of vectors of different lengths, every backend", "memory corruption beyond a slice is not observable by a unit test",
  [AM+":AddVector", AR+":AddVector", NO+":AddVectorGeneric"])
# ---- Shamir
p("Split then Combine recovers the secret from any threshold-many shares in any order",
  "If Split(secret,parts,threshold) succeeds then Combine of any selection, in any order, of at least threshold of the returned shares returns exactly secret with a nil error.",
  "every secret, parts, threshold, every outcome of the random source, every CPU backend, every buffer-pool content, every sub-selection and order of shares",
  "subsets x orders x coefficients x lengths are unbounded; tests use a prefix of the shares of a few secrets", [S+":Split", S+":Combine"])
p("SplitWithRandomizer then Combine recovers the secret",
  "Whenever SplitWithRandomizer returns shares, Combine of any at least threshold of them in any order returns exactly the secret, for every key stream and whatever stale bytes the pooled buffers hold.",
  "every secret, parts, threshold, key stream, pool history, backend, sub-selection and order", "depends on key stream and on stale buffer contents left by earlier calls",
  [S+":SplitWithRandomizer", CS+":GetUniqueBytes", PO+":makePolynomialsWithBuffAndRandomizer"])
p("SplitWithRandomizerOld and SplitGeneric then Combine recover the secret",
  "The same round-trip for SplitWithRandomizerOld (whenever it returns) and SplitGeneric.",
  "every secret, parts, threshold, randomness, backend, sub-selection and order", "as for Split; SplitGeneric has no test at all", [S+":SplitWithRandomizerOld", S+":SplitGeneric"])
p("SplitP then Combine recovers the secret under every goroutine schedule",
  "For secrets shorter than 2^32-1023 bytes, SplitP returns complete shares whose any threshold-many combine to the secret, whatever the interleaving of its worker goroutines and however they share the global random source.",
  "every secret, parts, threshold, random stream and interleaving of the per-chunk goroutines", "schedules cannot be enumerated by tests; SplitP is untested", [S+":SplitP", PO+":makePolynomial,evaluate"])
p("Share format",
  "A successful Split/SplitGeneric/SplitP/SplitWithRandomizer(Old) returns exactly `parts` shares of length len(secret)+1; the last bytes (tags) are pairwise distinct.  For Split, SplitGeneric, SplitP and SplitWithRandomizerOld no tag is 0.",
  "every secret, parts, threshold and randomness", "the random permutation and key stream cannot be enumerated", [S+":Split", S+":SplitWithRandomizer", S+":SplitP"])
p("Split validates its arguments exactly as documented and never panics",
  "Split, SplitGeneric and SplitP return an error iff parts<threshold, parts>255, threshold<2 (or >255) or the secret is empty, with the error of the first failing check; otherwise they succeed; they never panic (SplitP: for secrets below 2^32-1023 bytes). The Randomizer variants validate identically and never return an error on valid arguments.",
  "every integer parts/threshold incl. negative, every secret", "integers are unbounded; no test covers an error path", [S+":Split", S+":SplitWithRandomizer", S+":SplitWithRandomizerOld", S+":SplitGeneric", S+":SplitP"])
p("Combine validates its input exactly as documented and never panics",
  "Combine returns an error iff fewer than two parts, a first part shorter than 2 bytes, parts of different length, or two parts with the same tag (error of the first failing check); in every other case it returns a secret of length len(part)-1. It never panics.",
  "every list of byte strings, incl. empty, nil and ill-formed", "adversarial inputs are unbounded; no test covers an error path", [S+":Combine", PO+":interpolatePolynomial", PO+":div"])
p("Combine does not depend on the order of the shares",
  "Combine(p)=Combine(q) whenever q is a permutation of p and Combine(p) succeeds; and Combine(q) succeeds whenever Combine(p) does.",
  "every list of byte strings (also forged ones) and every permutation", "n! orders of arbitrary inputs", [S+":Combine"])
p("All qualified sets of shares agree",
  "For shares on polynomials of degree < t, any two sets of at least t shares combine to the same value; adding further shares never changes the result.",
  "every sharing and every pair of qualified selections", "exponentially many selections", [S+":Combine"])
p("Perfect secrecy of Split below the threshold",
  "With ideal uniform randomness, any at most threshold-1 shares produced by Split are distributed identically for any two secrets of the same length: for every fixed tag permutation and every candidate view, exactly as many random fillings produce that view from secret s as from secret s'.",
  "every two equal-length secrets, threshold, parts, set of fewer than threshold shares, and every view", "a statement about the whole probability space", [S+":Split", PO+":makePolynomialsWithBuff"])
p("Combine cannot notice that too few shares were supplied",
  "Combining 2..threshold-1 shares of a sharing succeeds without error, and the value it returns carries no information: with uniform coefficients every value is returned equally often.",
  "every secret, threshold>=3, every subset of 2..t-1 shares", "distribution statement over all coefficients", [S+":Combine", S+":Split"])
p("Combine works bytewise and tampering is undetected",
  "Byte j of Combine's result depends only on the tags and on byte j of the shares. Changing byte j of a single share (tags non-zero) changes byte j of the result, leaves the others unchanged, and raises no error.",
  "every share set with distinct non-zero tags, every share, byte position and new value", "all byte positions and values", [S+":Combine"])
p("Shares are additively homomorphic",
  "Adding (xor) the payloads of two share sets with equal tags and combining gives the xor of the two combined secrets.",
  "every pair of share lists with identical distinct tags", "unbounded inputs", [S+":Combine", PO+":interpolatePolynomial"])
p("Stale pooled buffers never influence Split's result",
  "The result of Split, SplitWithRandomizerOld and krawczyk.Split depends only on secret, parts, threshold and randomness, not on the content or size of the recycled buffers in the process-wide pools, hence not on earlier calls.",
  "every two pool states (contents, capacities)", "needs all call histories", [S+":Split", PO+":evaluatePolynomialsAtWithCoefficientsBuffer", PL+":Get,Put"])
p("Regenerated shares lie on the original polynomials",
  "If Regenerate is given at least threshold shares of a sharing and returns, every returned share is a further share of the same sharing: any threshold-many shares with distinct tags taken from old and new ones combine to the original secret. For arbitrary parts the new shares are the values of the interpolation polynomials through the given ones at the new tags.",
  "every sharing, qualified selection, number of new shares, random source, mix of old and new shares", "mixes and randomness are unbounded; the existing test is flaky by design", [S+":Regenerate"])
p("The tags of regenerated shares are the raw random bytes",
  "The de-duplication loop of Regenerate only updates a local variable, so the tags of the returned shares are exactly the raw random bytes. Against the expectation that they are fresh, two regenerated shares may coincide and a tag may equal an existing one.",
  "every call of Regenerate and random source", "collision appears with probability depending on the random source", [S+":Regenerate"])
p("When Regenerate terminates",
  "Regenerate does not return for every request: with numNewShares+len(parts)>256 it never returns, for any random source; a negative numNewShares panics. Otherwise it returns as soon as the random source produces unused bytes.",
  "every number of parts and new shares, every random source", "non-termination cannot be tested", [S+":Regenerate"])
p("Regenerating at a known tag reproduces that share, at tag 0 it yields the secret",
  "If a new tag equals the tag of a supplied share the new share equals that share; a new share with tag 0 carries the combined secret in clear.",
  "every valid list of parts and random bytes", "depends on random bytes", [S+":Regenerate", PO+":interpolatePolynomial"])
# ---- CSPRNG
p("CSPRNG output is one fixed key stream xored into the buffer, never fresh",
  "CSPRNG.Read xors the key stream from offset 0 into the buffer, for any buffer and however often it was called before; filling a zeroed buffer gives a prefix of one fixed stream. Consequently successive reads never produce new output (against the expectation of a random source), and reading twice into the same buffer restores its original content.",
  "every key stream, buffer, and history of earlier reads", "histories and keys are unbounded", [CS+":Read"])
p("When CSPRNG.Perm(n) returns a permutation of 0..n-1, and when it panics",
  "Perm(n) returns each value of [0,n) exactly once unless it panics: Perm(0) and Perm(1) always panic, and for n>=3 Perm panics iff the first key-stream byte is n-1 modulo n (for n=255: iff it is 254); in all other cases the result is a permutation.",
  "every n, every key stream", "a 1/256 event of the first key stream byte", [CS+":Perm"])
p("GetUniqueBytes(n) returns n distinct bytes; when it loops forever or panics",
  "Whenever it returns, the n bytes are pairwise distinct. For n<20 it loops forever iff some class {v, v xor k0} (k0 the first key stream byte) occurs more often among the first n key-stream bytes than it has members; for n>=20 it panics iff k0=254.",
  "every n and key stream", "non-termination and key dependence", [CS+":GetUniqueBytes"])
p("When a single SplitWithRandomizer share carries the secret in clear",
  "If parts<20 and 255 is among the selected bytes, one share has tag 0 and its payload equals the secret. With parts>=20 no share has tag 0.",
  "every secret, threshold, parts, key stream", "depends on the key stream; tests look only at the recovered secret", [S+":SplitWithRandomizer", CS+":GetUniqueBytes"])
p("Splitting several secrets with one randomizer reveals them",
  "(a) with fresh buffers two secrets are split with identical tags and identical coefficients, so payload differences of any single share reveal the xor of the secrets; (b) when the pooled buffer of an earlier equally sized split is reused its content is xored with the same stream again: the last byte of the second secret has a zero top coefficient, so for threshold 2 that byte appears in clear in every share, and a one-byte secret appears in clear in every share for every threshold. With SplitWithRandomizerOld (a) holds whatever the pools contain, for secrets of any lengths (as far as both reach) and any numbers of shares, so one share of each of two secrets tells whether the secrets are equal.",
  "every pair of secrets, parts, threshold, key stream", "needs call histories and inspection of the distribution", [S+":SplitWithRandomizer,SplitWithRandomizerOld", CS+":Read", PL+":Get,Put"])
p("SplitWithRandomizer: a share's tag determines coefficients",
  "In SplitWithRandomizer tags and coefficients come from the same key-stream bytes; for threshold 2, parts<20 and a fresh buffer, share 1 alone determines the first byte of the secret.",
  "every secret, parts, key stream with distinct leading bytes", "statistical/secrecy property", [S+":SplitWithRandomizer", CS+":Read"])
p("Randomizer.Perm(n) never returns a permutation",
  "For every n>=2 and every random source the value n-1 never occurs in the result; Perm(0) panics.",
  "every n and every key stream", "random", [RA+":Perm"])
# ---- pool
p("The buffer pool never blocks, never exceeds its capacity and recycles in FIFO order",
  "Get and Put always return; at most `size` buffers are retained; Get returns the least recently Put retained buffer or a new empty one; Put on a full pool discards.",
  "every sequence of Get and Put", "all operation histories", [PL+":BytesBufferPool"])
p("A pooled buffer is never handed to two users at once",
  "If every user Puts only buffers it holds, and each once, then under every interleaving no two concurrent users hold the same buffer and no held buffer is in the pool; concurrent Splits therefore do not disturb each other's results.",
  "every number of concurrent callers and every interleaving of their Get/Put/read/write steps", "schedules", [PL+":Get,Put", S+":Split"])
# ---- krawczyk
p("krawczyk Split then Combine recovers the secret",
  "If krawczyk.Split (or SplitWithRandomizer) succeeds, krawczyk.Combine of any at least threshold of the shares, in any order, possibly interleaved with nil entries, returns exactly the secret.",
  "every non-empty secret up to 2^32-1 bytes, parts, threshold, key, randomness, selection and order", "unbounded inputs and selections", [K+":Split", K+":SplitWithRandomizer", K+":Combine"])
p("krawczyk share size",
  "Every krawczyk share has length ceil(len(secret)/threshold)+22, and its last byte is its index.",
  "every successful Split", "all lengths", [K+":Split", K+":newByteMatrix"])
p("krawczyk Split validates its arguments",
  "krawczyk.Split succeeds iff 2<=threshold<=parts<=255, the secret is non-empty and at most 2^32-1 bytes (and threshold<parts, if the Reed-Solomon package refuses zero parity shards); in every other case it returns the error of the first failing check; it never panics. SplitWithRandomizer returns the same errors.",
  "every integer parts, threshold and every secret", "unbounded integers; e.g. threshold=1 passes the first checks and fails later", [K+":Split"])
p("krawczyk Combine refuses too few shares",
  "Fewer than threshold different shares of a krawczyk sharing (a non-empty list, repetitions and nil entries allowed) always give an error; fewer than threshold non-nil entries, whatever their content, never give a secret.",
  "every sharing, every selection of fewer than threshold shares", "selections", [K+":Combine"])
p("krawczyk Combine ignores nil entries",
  "Adding or removing nil entries (keeping at least one entry) never changes Combine's result (shares of at most 2^32-1 bytes).",
  "every list of shares with nil entries", "unbounded", [K+":Combine"])
p("Exactly when krawczyk Combine panics on malformed shares",
  "A part-id above `parts` is rejected with an error; but (against the expectation that malformed input gives an error) Combine panics exactly on an empty list, on negative parts, and when the first malformed share is shorter than 21 bytes, or has a part-id <= parts and is 21 bytes long or has part-id = parts. Otherwise it returns a secret or an error.",
  "every list of byte strings", "adversarial inputs", [K+":Combine"])
p("decrypt inverts encrypt",
  "decrypt(encrypt(m,k),k)=m and |encrypt(m,k)|=|m| for every 16-, 24- and 32-byte key, independent of how the stream is cut into chunks; both xor the message with AES in output-feedback mode from a zero IV; other key lengths give an error.",
  "every message, key, block function and chunking", "unbounded", [KA+":encrypt,decrypt"])
p("The length field survives serialisation",
  "The 4-byte little-endian length written by Split is read back unchanged by Combine for every length below 2^32.",
  "every length", "2^32 values", [K+":Split", K+":Combine"])
p("All krawczyk splits with one randomizer use the same encryption key",
  "Every SplitWithRandomizer with the same randomizer uses the same key (the first 16 key-stream bytes) and IV, so the xor of two ciphertexts is the xor of the two secrets: any single data share leaks it.",
  "every pair of secrets and key stream", "secrecy over histories", [K+":SplitWithRandomizer", CS+":Read"])
p("krawczyk.SplitWithRandomizer: the metadata tags reveal the encryption key",
  "With parts<20 and distinct leading key-stream bytes, byte 20 of share i minus one equals byte i of the key stream, whose first 16 bytes are the AES key; with 16 to 19 parts the tags alone therefore decrypt every data share, whatever the threshold.",
  "every secret, parts, key stream", "secrecy", [K+":SplitWithRandomizer", S+":SplitWithRandomizer", CS+":GetUniqueBytes"])
p("krawczyk Combine does not depend on share order",
  "For shares of a sharing, every order gives the same result.",
  "every selection of shares and permutation", "n! orders", [K+":Combine"])
# ---- worker etc
p("Worker dispatch and round trip",
  "Worker.Split/Combine with an algorithm other than \"shamir\" and \"krawczyk\" return an error; with the same algorithm name, Combine inverts Split on any at least k shares in any order.",
  "every algorithm string, input, n, k, key stream", "unbounded", [W+":Split,Combine"])
p("Results do not depend on the architecture",
  "With the same secret and randomness, Split, SplitWithRandomizer, SplitWithRandomizerOld, krawczyk.Split, krawczyk.SplitWithRandomizer and Worker.Split return identical shares on amd64 (any CPU features), arm64 and in the pure-Go build, and krawczyk.Combine and Worker.Combine identical results (also however io.Copy cuts the streams it encrypts). The other functions do not use the vector routines.",
  "every input, every pair of backends", "needs several machines", [S+":Split", AM, AR, NO])
p("SplitP on secrets of 2^32-1023 bytes and more",
  "SplitP is wrong for secrets of 2^32-1023 bytes and more: lengths are truncated to 32 bits; a secret whose length is a positive multiple of 2^32 yields all-zero payloads, and lengths congruent to 2^32-1023..2^32-1 panic on a wrapped slice bound.",
  "every length", "needs >4GiB inputs", [S+":SplitP"])
p("When returned shares are independent slices",
  "In-place writes to a returned share never change another one, for every variant. Appending n bytes to share i overwrites the first n bytes of the shares after it for Split, SplitWithRandomizer and SplitWithRandomizerOld (share i's spare capacity is the shares after it), unless n exceeds their total length (then none changes), so appending a byte to one share of a Split makes combinations with the next share return a wrong secret without an error; for SplitGeneric, SplitP, Regenerate, krawczyk.Split and krawczyk.SplitWithRandomizer appending never changes another share. No assignment or append to a returned share changes an argument or a share returned by another call.",
  "every share, every appended suffix", "memory layout, all sizes", [S+":Split", K+":newByteMatrix"])
p("Split neither modifies its input nor retains memory shared with its results",
  "Split leaves the secret slice unchanged, and later calls (which recycle pooled buffers) never change shares returned earlier.",
  "every heap, secret, history of later calls", "histories and aliasing", [S+":Split", PL+":Put", NO+":MulConstVectorGeneric"])
p("The fused multiply-and-add assembly routines",
  "galMulSSSE3Xor, galMulAVX2Xor, galMulAVX2Xor_64 and galMulXorNEON, called with the tables of c, add c*in[i] to out[i] for all the full blocks of in, leave the rest of out alone, and access no other memory, at every address, alignment and length and with any register content.",
  "every constant, input, output, length, placement in memory, register content", "unused by the Go code, so no test reaches them; alignment-dependent code", ["galois/vector_amd64.s", "galois/vector_arm64.s", AM, AR])
p("krawczyk Combine overwrites the index of shares without payload that have spare capacity",
  "Shares reduced to metadata and index (22 bytes) are accepted next to at least threshold complete shares, and Combine returns the secret. If such a share has an index below threshold and capacity for the payload, Combine stores the reconstructed payload into the caller's memory from byte 21 of the share on, replacing its index by the first payload byte; no other share and no other memory that existed before the call (outside those spare bytes) ever changes, under any interleaving with other calls.",
  "every sharing, every selection of complete and reduced shares, every placement in memory, every schedule", "memory effects, schedules", [K+":Combine"])
p("krawczyk Combine and the capacity of shares",
  "The result of krawczyk.Combine depends only on the bytes of the shares, with one exception: if the first malformed share has 1 to 20 bytes, a capacity of at least 21 and a last byte above parts, it returns the error about the part-id where it would panic without the spare capacity.",
  "every list of shares and capacities", "unbounded; no test looks at capacities", [K+":Combine"])
p("Histories of calls",
  "In every history of batches of concurrent calls (of any of the functions) on secrets and shares the program allocated and on results of earlier calls, every call returns what it would have returned alone, all arguments and results keep showing the same bytes for ever, and the history can always be continued; in particular whatever was split earlier (by any variant) can be combined at any later time from any selection of at least threshold shares.",
  "every history: number of batches, calls per batch, arguments, schedules, random bytes", "unbounded histories and schedules", [S, K, PL])
p("Fewer than threshold krawczyk shares reveal no more than the ciphertext",
  "krawczyk.Split with ideal randomness: if a secret under one key and another secret under another key have the same ciphertext, then any view of fewer than threshold shares is produced from both by equally many fillings of the random bytes; in particular such a view excludes no key; and if the encryption alone were perfectly secret, so would the sharing be.",
  "every two secrets and keys with a common ciphertext, every parts, threshold, permutation, set of fewer than threshold shares and view", "a statement about all fillings of the random bytes", [K+":Split", S+":Split"])
p("What a CSPRNG made from 32 bytes delivers, and that it retains the caller's IV",
  "NewCSPRNGWithKeyIV panics exactly on fewer than 16 bytes. From 32 bytes it delivers AES-128 in counter mode, with the first half (as it was at construction) as key and the second half, as it is at the time of reading, as initial counter: the caller's slice is retained, so overwriting its second half changes the source, overwriting the first half does not. NewCSPRNG does the same with 32 bytes of math/rand in private memory. Sources with one key and counters d apart deliver overlapping streams; AES being injective, no block of a stream repeats.",
  "every slice, memory content, AES block function, number of bytes read", "depends on later writes by the caller; unbounded lengths, counter overflow", [CS+":NewCSPRNG,NewCSPRNGWithKeyIV,Read"])
p("A Randomizer is one stream",
  "However reads are cut into calls and whatever the buffers contain, the concatenated buffers of successive Randomizer.Read calls are xored with the AES counter mode stream of the 32 bytes drawn by NewRandomizer, each byte of which is used once; on the first read it agrees with a CSPRNG made from the same bytes.",
  "every sequence of reads of any lengths", "unbounded histories of calls", [RA+":NewRandomizer,Read", CS+":NewCSPRNG"])
p("Regenerated shares reveal no more than original ones",
  "Split with ideal randomness followed by Regenerate on at least threshold of the shares: any view of fewer than threshold shares, original and regenerated ones mixed, none of the regenerated ones with tag 0, is produced from any two secrets of the same length by equally many fillings of the random bytes.",
  "every two equal-length secrets, parts, threshold, selection given to Regenerate, random bytes of Regenerate, set of fewer than threshold old and new shares, and view",
  "a statement about distributions over all random fillings", [S+":Split", S+":Regenerate"])
p("krawczyk shares are malleable",
  "krawczyk.Combine does not detect modified shards: given shares of one sharing, among them all those with index below threshold, to whose shards arbitrary masks were added, it succeeds and returns the secret plus the masks of the shares with index below threshold; masks on the others are ignored. Hence whoever knows the secret and can write those shares makes Combine return any message of the same length.",
  "every sharing, selection and order of shares, nil entries, masks", "every modification of shares of every sharing", [K+":Combine", KA+":decrypt"])
p("The program main.go",
  "checkSecretSharing prints its message twice on arguments Split accepts and ends the process with Split's error otherwise. The two measuring functions print one line for each doubling of the message length within the limit and end, for every non-empty message and number of repetitions; for the empty message the encryption measurement never ends, and the other one ends the process (or never ends, without repetitions). When the system's random source fails the encryption measurement stops silently. main prints its message twice, then the lengths 64 to 32768 twice, and ends normally.",
  "every message, limit, number of repetitions, random bytes, CPU", "unbounded loops, termination", ["main.go:main,checkSecretSharing,measureSecretSharingLatency,measureEncryptionLatency"])
p("Random bytes drawn by each call",
  "When a call is over it has drawn from the process-wide random source (besides the permutation of the tags) exactly: threshold bytes per byte of the secret (Split), threshold-1 (SplitGeneric), 16 + 20*threshold (krawczyk.Split; 16 if it fails after its first checks), numNewShares plus one byte for every collision (Regenerate); nothing if the arguments are rejected, and nothing in the variants with a randomizer and in the two Combine functions. Two runs of a call (other than SplitWithRandomizer) that draw the same bytes return the same bytes, whatever else runs.",
  "every state, set of concurrent calls, schedule, random bytes", "schedules; histories", [S, K, PO])
p("Programs that make calls at any time",
  "A program with any number of goroutines makes calls of any of the functions (krawczyk.Combine: without reduced shares next to complete ones) at any time, also while others run, allocates memory, and stores into memory it knows except the bytes of arguments of calls that have not returned. Every call returns the right result for the bytes its arguments had when it was made; no call changes memory the program knows, or reads any of it but its own arguments; results lie in memory unknown before and not shared with other results; no data race and no panic occurs (except SplitP near multiples of 2^32 bytes); calls always come to an end; and combining the bytes of at least threshold shares that a split returned gives the secret as it was when the split was called, even if it was overwritten since.",
  "every interleaving of calls, their goroutines, allocations and stores; every argument and every random byte", "unbounded histories and schedules", [S, K, PL])
p("How often Regenerate's result is usable",
  "Of the 256^n fillings of the n bytes Regenerate draws as tags, exactly 256^n - 255^n make it return the secret in clear as one of the new shares; exactly (256-m)(255-m)...(257-m-n), for m given shares, make the tags of given and new shares all different, and (255-m)...(256-m-n) of these also avoid tag 0.",
  "every list of m shares Regenerate accepts, every n, every later random byte", "a count over all fillings of the random bytes", [S+":Regenerate"])
p("The metadata of krawczyk shares is malleable",
  "krawczyk.Combine does not detect modified metadata: if 20-byte masks are added to the first 20 bytes of at least threshold different shares of one sharing, it behaves as if what the masks combine to (as Shamir shares with the shares' tags) had been added to the key and the length: it returns the decryption under the changed key of that many bytes of the padded ciphertext, and an error only if there are not that many. Hence the holder of any single one of the shares, knowing only the tags of the others and the length of the secret, makes Combine return any prefix of the secret.",
  "every sharing, selection and order of at least threshold shares, nil entries, masks, prefix lengths", "every modification of shares of every sharing", [K+":Combine", S+":Combine"])
p("Shares combined under the name of the other algorithm",
  "At least two krawczyk shares of one sharing given to shamir.Combine (or Worker.Combine with \"shamir\") are accepted; the result is as long as a share without its index, and if the share with index 0 is among them it is that share. Shamir shares of a secret of less than 20 bytes given to krawczyk.Combine (or Worker.Combine with \"krawczyk\") make it panic (against the expectation of an error), or return an error if a share has spare capacity.",
  "every sharing of either kind, every selection of shares", "every sharing; no test combines shares of the other algorithm", ["worker/worker.go:Split,Combine", K+":Combine", S+":Combine"])
p("krawczyk Combine on shares that overlap in memory",
  "Complete shares given to krawczyk.Combine may overlap in memory in any way: results are as for separate memory and no memory changes. But if one share without payload (22 bytes, index p below threshold) has spare capacity that reaches over a complete share q starting d >= 22 bytes behind its start, Combine returns without an error what it would return for the complete shares if the payload of share q began with the payload of share p from byte d on: secret bytes carried by share q are wrong wherever these differ.",
  "every sharing, layout with one share without payload, distance, set of concurrent calls, schedule", "memory layouts and schedules", [K+":Combine"])
p("Pooled buffers are returned",
  "Calls of all functions return the buffers they take from the two process-wide pools: however the calls interleave, and whatever their arguments, at any time the buffers missing from a pool are at most 2 (the pool of polynomial buffers) or 1 (the pool of evaluation buffers) for each call that has not returned; a pool never grows beyond its initial content or what the largest number of calls under way at one time can use; and if a pool contains that many buffers, no call ever allocates one.",
  "every state of the pools, set of concurrent calls, schedule; every program that makes calls at any time, of any length", "unbounded histories and schedules", [S+":Split,SplitWithRandomizer", PO, "utils/bufferpool.go:Get,Put"])
p("A program that makes one call at a time",
  "In a program with a single goroutine that makes calls one after the other, and allocates and stores between them, every call returns the bytes a call taken by itself returns when the pooled buffers have the contents the calls before left in them, and leaves the pools a call by itself leaves. So two such programs that start with equal pools, ask for the same with the same random bytes and in the same order get the same results, wherever the arguments lie in memory. And a program whose first two calls are SplitWithRandomizer on one-byte secrets with the same randomizer and threshold gets shares from the second call that all show its secret.",
  "every sequence of calls of all functions, of any length, with any memory operations between them; every state of the pools", "unbounded histories", [S, K, PO, "utils/bufferpool.go:Get,Put"])
p("AddVector on slices that overlap in memory",
  "AddVector(a, b) for slices of equal length n anywhere in memory, on every build, returns b and changes nothing outside of b. If b starts at or before a (in particular if they are the same slice, which becomes zero), or the slices do not overlap, b becomes the elementwise sum of the vectors as they were before the call. If b starts d bytes behind the start of a, inside of it, and d is at least the number of bytes the build processes at a time (64, 32, 16 or 1, depending on build and n), the result is that of a loop over the bytes from first to last; so for d >= 64 all builds agree. For smaller d they do not: byte d of b is xored with the old first byte of b, where a build with smaller blocks uses the new one.",
  "every build, length, pair of addresses, memory content and register content", "every overlap of slices of every length; one test machine has one build", [AM+":AddVector", AS, AR+":AddVector", ARS, NO+":AddVectorGeneric,AddVectorBatchGeneric", VG+":AddVector"])
p("secrecy is limited by the number of states of the random source",
  "Whatever the random source, the secret follows from one share and the state of the source: split the all-zero secret of that length with the same randomness and add the two shares. So one share of Split, SplitGeneric or SplitWithRandomizer leaves at most as many secrets possible as the source has states, and excludes some secret of n bytes if it has fewer than 256^n; with ideal random bytes no secret is excluded. math/rand after rand.Seed has at most 2^31-2 states, so whatever the time of the seed and the use of the source before the call, a share of Split excludes some secret of every length of at least 4 bytes; a CSPRNG made from 32 bytes excludes some secret of more than 32 bytes. A share of krawczyk.Split with index below threshold leaves at most 256^16 possibilities for the part of the ciphertext it carries, however good the source.",
  "every source, seed, use of the source before, secret, parts, threshold, share, build and pool state", "quantifies over all random sources and all secrets", [S+":Split,SplitGeneric,SplitWithRandomizer", CS+":init,NewCSPRNG", K+":Split"])
p("a long secret gives away the randomness of later calls",
  "After a call of Split with threshold other than 7 and threshold*len(secret) >= 8504, in any state of math/rand, the shares at threshold positions determine (the secret and) every byte that math/rand's Read delivers later in the program, however the source is used in between. So a single share of a later Split determines its secret (when rand.Perm rejects no number in that call), and a single share of a later krawczyk.Split with index below threshold determines the part of the secret it carries. The shares of SplitGeneric at threshold positions determine the secret and all later bytes from (threshold-1)*len(secret) >= 4255 on, for every threshold, and a single share of a later SplitGeneric then determines its secret (when rand.Perm rejects no number).",
  "every two states of the source, secrets, parts, thresholds, positions of shares, uses in between", "all states of the generator and all histories", [S+":Split", PO+":makePolynomialsWithBuff", K+":Split,encode"])
p("the random sources and krawczyk's encryption, with AES as FIPS 197 defines it",
  "With AES as specified in FIPS 197: for every key of 16, 24 or 32 bytes, AES maps blocks of 16 bytes to blocks of 16 bytes, and every block is the image of exactly one block. A CSPRNG made from 32 bytes delivers AES-128 in counter mode, no two 16-byte blocks of which are equal (up to 2^128 blocks); a Randomizer delivers AES-128 in counter mode across its calls. krawczyk's encrypt and decrypt are AES in output feedback mode with zero IV. For every key its key stream has a period of c blocks, 1 <= c <= 2^128: message bytes whose positions differ by a multiple of 16c are encrypted with the same byte (so the ciphertext shows the xor of the two), and the first c blocks of the stream are pairwise different.",
  "every key, initial counter, message, length and pair of positions", "2^128 keys and blocks; a test sees single blocks under single keys", [CS+":NewCSPRNGWithKeyIV,Read", RA+":NewRandomizer,Read", KA+":encrypt,decrypt"])
p("krawczyk with the real algorithms of the packages it uses",
  "With the Reed-Solomon algorithm of klauspost/reedsolomon (systematic Vandermonde matrix over the same field) and AES: at every byte position the data and parity shards are the values at 0, 1, ..., k+m-1 of one polynomial of degree below k; any k of the shards give back the data. krawczyk.Split succeeds exactly on the documented arguments and any threshold shares combine to the secret, with nothing assumed about the packages. At every position of their data part the shares returned are the values, at their index, of a polynomial of degree below threshold whose values at the indices below threshold are the consecutive pieces of the AES-OFB encryption of the secret under the key drawn.",
  "every secret, parts, threshold, selection and order of shares, random bytes; every number of data and parity shards up to 256", "every matrix and every selection of rows; 2^128 keys", [K+":Split,SplitWithRandomizer,Combine", KA+":encrypt,decrypt"])
p("what time and caches show",
  "The comments of div and mult promise that they are not subject to timing attacks. Let an observer see every branch, every number of iterations and every address accessed, but no data. The assembly routines show nothing but the addresses and lengths of their arguments, whatever these contain. Which branches Split takes and which positions of slices it accesses depends on the length of the secret, parts, threshold and tags only; for Combine, on the number, lengths and tags of the shares only; mult and (for nonzero divisors) div have no branch that depends on operands. But table lookups show data. Two runs of Split with the same public arguments show the same exactly if they use the same random bytes for those positions of the secret that MulConstVector handles by table lookups: those behind the last whole block (AVX2: of 32 bytes, of 64 from 128 bytes on, with one of 32 if more than 32 remain; arm64: 32), all of them without assembly, and, with SSSE3 but not AVX2, also all of them if the length is a multiple of 16. So Split never shows anything that depends on the secret when the random bytes are the same, and nothing at all for lengths without such positions; otherwise what it shows and a single share determine the secret at these positions, whatever the threshold. Combine shows the shares exactly. Likewise SplitGeneric and SplitWithRandomizer: their branches and positions depend on public arguments and tags only; SplitGeneric shows exactly all random bytes it uses, so that what it shows and one share determine the whole secret; SplitWithRandomizer shows exactly key stream plus left over contents of its recycled buffer at the looked up positions. So it shows an earlier secret: after a call on empty pools, what the next call of the same size with the same randomizer shows is the same for two histories exactly if the earlier secrets agree in their bytes threshold*j+k, 0 < k < threshold, j looked up. The branches and positions of Regenerate depend on numbers, lengths and tags of the parts and its random bytes only, but as soon as it makes a new share it shows the parts exactly. SplitWithRandomizerOld shows exactly the key stream at the looked up positions, whatever the pools hold, hence never an earlier secret. A goroutine of SplitP shows exactly the random bytes it draws, and nothing of what other goroutines write; its branches and positions depend on the number of its bytes, their place, parts, threshold and tags only. What either shows, with one share, determines the secret at these positions.",
  "every build and processor, secret, parts, threshold, permutation, random bytes, key stream, state of the pools, list of shares, pair of successive calls; for assembly every content of memory and registers, and every number of steps", "quantifies over pairs of runs on all inputs; tests do not observe addresses", [PO+":div,mult,interpolatePolynomial,evaluatePolynomialsAtWithCoefficientsBuffer", S+":Split,SplitWithRandomizer,SplitWithRandomizerOld,SplitGeneric,SplitP,Combine,Regenerate", AM+":MulConstVector,AddVector", AS, AR, ARS, NO])
p("one worker for its whole life",
  "NewWorker never fails; its worker's random source is AES in counter mode under 32 bytes of math/rand, which nobody else can change, so two workers made from equal bytes behave identically, and a program that seeds math/rand with the time and then calls NewWorker gets one of at most 2^31-2 workers. Whether a Split call of a worker is refused, returns, panics or never returns depends on its arguments and these bytes only, not on earlier or concurrent calls: if one Split panics, so does every accepted Split of that worker into 20 or more shares, by either algorithm, and none into fewer; if one accepted Split into n < 20 shares never returns, then none into n to 19 shares does. All splits of a worker show the same evaluation points: those of n shares are the first of those of n' shares, when both numbers are below 20 or both are not, whatever the algorithms, secrets and thresholds. One split into 16 to 19 shares by either algorithm gives away, by these points, the encryption key of every krawczyk split of that worker, earlier or later, so that each of its data shares alone reveals its piece of the secret (if the first bytes of the key stream are distinct).",
  "every 32 bytes, AES function, pair of calls in the life of a worker with any arguments, state of the pools at each of them", "quantifies over all pairs of calls in unbounded histories and over all keys", ["worker/worker.go:NewWorker,Split", CS+":NewCSPRNG,GetUniqueBytes", S+":SplitWithRandomizer", K+":SplitWithRandomizer"])
p("secrecy when many secrets are split and watched",
  "Assume ideal random bytes. A program splits secrets one after the other with Split or SplitGeneric, all from one random source and sharing the pools, whatever these contain, and adds shares with Regenerate, given at least threshold shares; in between an adversary looks at shares, original or regenerated, one at a time. Which call is made next, which share is looked at next and the secrets may depend on everything seen before. Then every sequence of sights (shares, refusals, numbers of shares) is caused by equally many fillings of the random bytes with either of two ways to choose secrets of equal lengths, provided that of each secret in which they differ fewer than threshold different shares were looked at, none with tag 0; all shares of the other secrets may be known. With every filling exactly one sequence of sights of each length occurs (up to a call of Regenerate that panics or does not return).",
  "every strategy of adversary and program, number of calls, arguments, permutations, state of the pools, sequence of sights", "a count over all fillings of the random bytes, for every adaptive strategy and unboundedly many calls", [S+":Split,SplitGeneric,Regenerate", PO])
p("the permutations CSPRNG.Perm returns are not random",
  "For n >= 3, whenever Perm(n) returns, its first entry is 1 plus the first key stream byte modulo n, hence never 0 (against the expectation that every permutation can occur); its last entry is n-1 unless the first key stream byte is n-2 modulo n or the second is n-2 modulo n-1: for n = 255, whenever the first two bytes are not 253. So the evaluation point of the first share of any Worker.Split into 20 or more shares, by either algorithm, is 2 plus the first byte, modulo 255, of the key under which all krawczyk splits of that worker encrypt.",
  "every key stream, every n >= 3, every worker and pair of calls in its life", "every key stream of the source; tests check only that the result has no duplicates", [CS+":Perm,GetUniqueBytes", "worker/worker.go:Split", K+":SplitWithRandomizer"])
p("shares that do not belong together",
  "Combine and Regenerate cannot tell which sharing a share belongs to. Between one and threshold-1 shares made by Split or SplitGeneric from ideal random bytes, combined together with any other shares of that length whose tags are nonzero and distinct (shares of other secrets, forged ones): Combine succeeds, and every value is returned for exactly one in 256^len(secret) of the fillings of the random bytes, whatever the secret and the other shares. Regenerate on any shares it accepts, also too few or mixed ones, returns shares that are consistent with those: any of the given and new ones, as many as were given and with distinct tags, combine to the value the given ones combine to. So with fewer than threshold shares of a secret given to Regenerate, what is combined afterwards is uniformly distributed as well and says nothing about the secret.",
  "every secret, parts, threshold, permutation, pool content, choice of shares, list of foreign shares, random bytes of Regenerate, choice among old and new shares, and result value", "a count over all fillings of the random bytes, for all forged inputs", [S+":Split,SplitGeneric,Combine,Regenerate", PO+":interpolatePolynomial"])
p("shares of HashiCorp's package",
  "README.md presents the library as a modification of the package shamir of HashiCorp's Vault, with the same share format; but that package works over the field of AES, 0x11b, and this one over 0x11d. Given two shares of a 2-out-of-m sharing of n bytes made over the other field, with any two tags, Combine raises no error, and its result is the secret for at most one in 2^n choices of the random coefficients; given all 255 shares, in any order and whatever the threshold, it is always the secret. Substituting x+1 for x in every byte, tags included, converts shares of one kind to shares of the other, with the converted secret and the same threshold; doing it twice changes nothing. The logarithms of shamir/tables.go are to the base 2; for all but three bytes they are not to the base 0xe5 its comment names.",
  "every secret, pair of tags, coefficients, threshold, order of the shares", "all coefficients, tags and secrets; tests use only shares made by this library", [S+":Split,Combine", "shamir/tables.go:logTable", "README.md"])
p("what time and caches show of krawczyk's key",
  "The metadata krawczyk shares with package shamir are 20 bytes, the encryption key and a length; of these, all are handled by table lookups on every build and processor except amd64 with SSSE3 but not AVX2, where only the length is. Let an observer see every branch, iteration and address of the call into package shamir. For Split, they show the random bytes used to share the looked up metadata exactly and nothing else; so (except with SSSE3 alone) they and the first 16 bytes of one share determine the encryption key, whatever the threshold, and they and one of the first threshold shares determine its piece of the secret. SplitWithRandomizer takes the key and the bytes to share it from the same key stream: on empty pools what it shows determines, without any share, every byte of the key whose position is no multiple of the threshold; with the first 16 bytes of one share, the whole key. Combine shows the metadata of all shares given exactly. The branches and positions depend on lengths, parts, threshold and tags only.",
  "every build and processor, secret, parts, threshold, permutation, random bytes, key stream, state of the pools, list of shares; pairs of runs", "quantifies over pairs of runs on all inputs; tests do not observe addresses", [K+":Split,SplitWithRandomizer,Combine,keyLenPair", S+":Split,SplitWithRandomizer,Combine", AM+":MulConstVector", NO])
p("how many corrupted shares can be noticed and corrected",
  "Combine does not notice corrupted shares. But of n shares of a sharing, at most e of which were replaced by arbitrary byte strings (of any length, also equal ones): if n >= threshold + 2e, there are threshold + e of them, all of whose choices of threshold combine without an error to one value, and whenever there are, that value is the secret; if n >= threshold + e, and all choices of threshold among them combine to one value, that value is the secret. This holds for the shares of Split, SplitWithRandomizer, SplitWithRandomizerOld, SplitGeneric and krawczyk's two; the first also for SplitP under every schedule, and for collections of original and regenerated shares with distinct tags. More is not possible: for every run of Split, at any threshold + 2e - 1 positions, and any other secret of that length, there is a run for the other secret (with other random bytes) such that one and the same list is obtained from both by replacing at most e shares; at any threshold + e - 1 positions, replacing at most e shares gives shares of the other secret.",
  "every secret, parts, threshold, permutation, random bytes, key stream, pool content, selection and order of shares, number of errors, replaced places and contents", "all corruptions of all selections of shares; the limits quantify over all procedures", [S+":Split,SplitWithRandomizer,SplitWithRandomizerOld,SplitGeneric,Combine", K+":Split,SplitWithRandomizer,Combine"])
p("sizes that do not fit into an int",
  "Sizes and positions are computed in integers of w bits (w = 32 or 64), which overflow silently. On valid arguments (secrets shorter than 2^(w-1) bytes, as all slices) Split, SplitWithRandomizer and SplitWithRandomizerOld panic if parts*(len(secret)+1) >= 2^(w-1) (the latter two after making the tags, which may hang or panic itself), and SplitGeneric panics if threshold*len(secret) >= 2^(w-1); in all other cases every computation gives the same result as with unbounded integers. So shares are never truncated or wrong because of an overflow: whatever is returned combines to the secret. SplitP panics if len(secret)+1 = 2^(w-1), before it starts a goroutine, and is otherwise not affected by w; so with w <= 32 it has none of the defects of C48: the loop never panics and whatever is returned, under any schedule, combines to the secret. In krawczyk's two splitting functions (w = 64) nothing overflows on any arguments. GalExp(a, n) for a = 2^l is 2^v, v being l*n in w bits, and panics if v is negative.",
  "every word size above 8 bits (krawczyk: from 42 bits on), secret that fits, parts, threshold, permutation, random bytes, key stream, state of the pools, build", "needs secrets of gigabytes, or a 32-bit platform; every combination of sizes", [S+":Split,SplitWithRandomizer,SplitWithRandomizerOld,SplitGeneric,SplitP", PO+":newMatrix,makePolynomials,makePolynomialsWithBuff,makePolynomialsWithRandomizer,transpose,transposeMatrixBuffer,evaluatePolynomialsAtWithCoefficientsBuffer", "galois/galois.go:GalExp"])
p("secrecy when many secrets are split and watched, also with krawczyk.Split",
  "Assume ideal random bytes, and a Reed-Solomon library that keeps its contract. A program splits secrets one after the other with Split, SplitGeneric or krawczyk.Split, all from one random source and sharing the pools, and adds shares with Regenerate to the sharings of the first two; an adversary looks at shares one at a time. Calls, looks, secrets and keys may depend on everything seen before. Then every sequence of sights is caused by equally many fillings of the random bytes (other than keys) with either of two ways to choose secrets and encryption keys, of equal lengths and with equal ciphertexts, provided that of each secret in which they differ fewer than threshold different shares were looked at (and, outside krawczyk, none with tag 0). So nothing seen excludes any choice of the keys: with each there are secrets that explain it equally well. And if the encryption alone has perfect secrecy, then, counting over the keys as well, what is seen tells nothing about the secrets. With every filling exactly one sequence of sights of each length occurs.",
  "every strategy of adversary and program, number and order of calls, arguments, permutations, keys, block function, state of the pools, sequence of sights", "a count over all fillings of the random bytes and keys, for every adaptive strategy and unboundedly many calls", [K+":Split", S+":Split,SplitGeneric,Regenerate", PO])
p("computing on shares, and refreshing them",
  "A client can compute on shares with the exported arithmetic. MulConstVector with a constant, or AddVector with one vector, applied to the payloads of all given shares, makes Combine return MulConstVector, or AddVector, of what it returned before. Multiplying the payloads of two sharings (thresholds t and t') with the same tags byte by byte with GalMultiply makes any t+t'-1 of the products combine to the bytewise product of the secrets; t+t'-2 of them, for two runs of Split, exactly if for every byte of the secret one of the last coefficients drawn is zero. Refreshing: whoever adds to the shares of a Split, as often as desired, those with the same tags of a Split of as many zero bytes with the same threshold, keeps a sharing of the secret with that threshold (of the tags that occurred each time); and from ideal random bytes, any view consisting of fewer than threshold shares before and after each refreshment, others each time, is produced by equally many fillings of the random bytes from any two secrets of that length.",
  "every build, list of shares, constant, vector, secret, parts, threshold, permutation, random bytes, state of the pools, number of refreshments, choice of shares seen", "all combinations of shares; a count over all fillings, for every number of refreshments", [S+":Split,Combine", AM+":MulConstVector,AddVector", G+":GalMultiply", PO+":interpolatePolynomial"])
p("secrecy when single bytes of shares become known",
  "The bytes of a secret are shared independently of each other, by Split and SplitGeneric: if parts of shares become known (a share cut off, a memory page, some bytes of every share), then a byte of the secret stays hidden as long as fewer than threshold shares are known at its position, however many are known at other positions. For two secrets of equal length that agree in all bytes for which threshold or more shares are known, the known bytes of shares are produced by equally many fillings of the random bytes. And threshold shares known at one position determine the byte of the secret there, whatever else is known.",
  "every pair of secrets, parts, threshold, permutation, state of the pools, build, set of known positions for every byte, values seen", "a count over all fillings of the random bytes, for every pattern of known bytes", [S+":Split,SplitGeneric", PO+":makePolynomialsWithBuff,makePolynomials"])
p("splitting shares again",
  "A client can build more general rules by giving a share not to a holder but to Split again, to any depth (two of Alice, Bob and the directors, who need two of three). Call a group of holders qualified if it has threshold of the shares of the first Split, where a share that was split again counts as available if the group is qualified for it. A qualified group gets the secret back by Combine from the holders upwards, using all shares it can get; a group that is not qualified never reaches threshold shares at the top, and from ideal random bytes what it holds altogether is produced by equally many fillings from any two secrets of the same length.",
  "every tree of calls of Split of any depth and width (arguments, permutations, states of the pools, builds), secret, random bytes, group of holders, and values held", "a count over all fillings of the random bytes, for all trees", [S+":Split,Combine"])
p("what time and caches show of the random source",
  "Let an observer see branches, numbers of iterations and positions in slices of CSPRNG.Perm and GetUniqueBytes, whose source delivers the same bytes again on every Read. The positions Perm(n) accesses (n >= 3, when it returns) are exactly the first n-2 key stream bytes, byte i modulo n-i; those of Perm(n) in the package randomizer exactly the next n-1 key stream bytes, byte i modulo n-1-i; either determines what Perm returns. So GetUniqueBytes(n), n >= 20, shows byte i modulo 255-i, for i < 253: every byte b with i < b < 255-i, i < 127, completely; and of the 2^128 keys with which krawczyk.SplitWithRandomizer encrypts at most 2^16 are compatible with what one call shows. For n < 20, the branches are exactly which key stream bytes repeat an earlier result, and branches and returned bytes together are exactly the first n key stream bytes. So the tags and branches of one split of a worker into 16 to 19 shares, by either algorithm, determine the key of all its krawczyk splits (without the condition of C75), and each krawczyk share below the threshold then determines its piece of the secret. With tags, branches and one share of SplitWithRandomizer into fewer than 20 shares on empty pools, the bytes of the secret at positions j with threshold*(j+1) <= parts are determined.",
  "every pair of key streams, n, secret, parts, threshold, build; every observation", "quantifies over pairs of runs on all key streams; tests do not observe addresses", [CS+":Perm,GetUniqueBytes", "randomizer/randomizer.go:Perm", S+":SplitWithRandomizer", K+":SplitWithRandomizer", "worker/worker.go:Split"])
p("how much work the calls do",
  "Count as steps the branches taken, loops begun, and accesses to slices, tables and maps, and the bytes handled by copy and by the assembly routines. Combine on k shares that returns m bytes makes exactly m(10k^2-k+3)+7k+4 steps, whatever the values are; a call that fails makes at most 7k+4, however long the shares are; and on any input, however malformed, Combine is linear in the size of its input (at most 2560 steps per byte of the shares, plus 7k+4), because more than 256 shares repeat a tag. Split, SplitWithRandomizer and SplitGeneric with valid arguments make at most 45*parts*threshold*len(secret) steps, on every build, whatever the random source delivers and however they end, and at most 5 with invalid arguments. Regenerate of n shares makes at most 7k+6+n(2c+6)+nm(10k^2-k+3), if no share needs more than c candidates. SplitWithRandomizerOld makes at most 50*parts*threshold*len(secret). The goroutines of SplitP, one for every 1024 bytes, make at most 6*parts*threshold*len(secret) together, and none more than 6*parts*threshold*1024. The work krawczyk does in package shamir does not depend on the length of the secret. Not counting AES, CSPRNG.Perm(n) makes at most n+5m+2 steps (m the number of its rounds, n-2 for n >= 2), Perm of the package randomizer at most n+3m+2 (m = n-1 for n >= 1), and GetUniqueBytes(n) at most 1524, if it returns at all.",
  "every input (also malformed), build, state of the pools, random bytes, outcome", "a bound for all inputs; benchmarks time a few", [S+":Split,SplitWithRandomizer,SplitWithRandomizerOld,SplitGeneric,SplitP,Combine,Regenerate", PO+":interpolatePolynomial,evaluate,evaluatePolynomialsAt,evaluatePolynomialsAtWithCoefficientsBuffer", "galois/vector_amd64.go", "galois/vector_arm64.go", "galois/vector_noasm.go", K+":Split,Combine", CS+":Perm,GetUniqueBytes", "randomizer/randomizer.go:Perm"])
out=os.path.join(os.path.dirname(os.path.abspath(__file__)),"..","properties.jsonl")
open(out,"w").write("".join(json.dumps(x)+"\n" for x in P))
print(len(P))
