# Design of the formal model of ckb-bf-zkvm

Lean 4.33.0 with Mathlib, project in `lean/`. Every model definition cites the
file and lines of `/repo` it follows and lists its simplifications. Property
theorems live in `Verif/Props/*.lean`; models in `Verif/Model/*.lean`,
independent specifications in `Verif/Spec/*.lean`, helper lemmas in
`Verif/Lemmas/*.lean`.

## Trusted base

* The Lean kernel, and the axioms `propext`, `Classical.choice`, `Quot.sound`
  (each property file ends with `#print axioms` for its theorems). No own
  axioms, no `sorry`, no compiled evaluation.
* That the Lean model says what the Rust text says. The Rust was read, not run.
* Mathlib's definitions (`ZMod`, `List`, `Multiset`, `Polynomial`).

### Modelled code

| Code | Model | Remarks |
|---|---|---|
| bn256 `Fr` | `ZMod P`, `P` the bn256 scalar modulus (proved prime) | arithmetic is exact field arithmetic; order and `get_lower_128` via the canonical representative |
| `ckb_bf_vm/src/code.rs` | `compileToU16` | u16 casts, overflow checks on/off, index panics |
| `ckb_bf_vm/src/interpreter.rs`, `matrix.rs` | `Interp.run` | all panics explicit; loop by fuel |
| `halo2 Expression`, `ConstraintSystem` | `Expr`, `CS` | queries, gates, lookups, equality columns, degree, blinding factors |
| `ckb_bf_base` tables `configure*`, `load_table` | circuit builder and region operations | annotations dropped |
| `SimpleFloorPlanner` | region placement | |
| acceptance of a circuit | `Satisfied` | gates vanish on all rows, lookups on usable rows, copy constraints (`dev.rs` `verify_at_rows` without the "cell not assigned" lint) |
| `ckb_bf_prover/src/main.rs` | public inputs, choice of k, code witness encoding | |
| `ckb_bf_verifier/src/main.rs` | `programEntry` | syscalls are a list of witnesses; key parser and proof verification are parameters, given in `Model/OnChain` |
| `read_verifier_params`, `ParamsKZG::shrink/write_custom`, `SerdeObject` of `Fq`, `Fq2`, `G1Affine`, `G2Affine` (raw) | `Model/Bytes`, `Model/Limbs`, `Model/Verifier` | bytes and 64-bit limbs, including the borrow-chain comparison with the modulus |
| `VerifyingKey::write/read`, `Expression::write/read`, `SelectorAssignment` bytes, `Fr` in raw format | `Model/VerifyingKey` | `transcript_repr`, allocation failure and stack depth dropped |
| `compress_selectors.rs`, `ckb_recreate_side_effect` | `Model/Compress` | |
| `permutation/keygen.rs` `Assembly::new/copy` | `Model/Permutation` | the relabelling loop has fuel |
| `lookup/prover.rs` `permute_expression_pair` | `Model/Lookup` | `BTreeMap` as a list of pairs in order of keys; random rows are arguments |
| `plonk/evaluation.rs` graph | `Model/Evaluation` | index panics explicit; `i32` casts exact |
| `poly/domain.rs`, `arithmetic.rs` (transform, multi-exponentiation, division, interpolation) | `Model/Domain`, `Model/Arith`, `Model/Kzg` | loops with fuel; 64-bit shifts; threads dropped (`multicore` runs the closure once) |
| `poly/kzg/commitment.rs` (setup, commit, downsize) | `Srs` in `Model/Kzg` | points are elements of any `Fr`-module; affine/projective not distinguished |
| `plonk/keygen.rs` `keygen_vk`, `permutation/keygen.rs` `build_vk/build_pk` | `Model/Keygen` | committing is a parameter |
| `plonk/verifier.rs`, `permutation/verifier.rs`, `lookup/verifier.rs`, `vanishing/verifier.rs` | `Model/PlonkVerifier` | from challenges and evaluations to the list of openings, for one proof; commitments of any type |
| `plonk/prover.rs`, `permutation/prover.rs`, `lookup/prover.rs`, `vanishing/prover.rs`, `evaluation.rs` `evaluate_h`, `keygen_pk` | `Model/PlonkProver` | for one proof; polynomials stand for commitments; challenges and random values are arguments; the transcript is dropped |
| `poly/kzg/multiopen/shplonk*`, `poly/kzg/msm.rs`, `poly/kzg/strategy.rs` | `Model/Shplonk` | objects are told apart by references instead of addresses; the pairing is any bilinear map; points and challenges read from the transcript are arguments |
| `poly/kzg/strategy.rs` `AccumulatorStrategy` | `Model/Batch` | the factor is an argument; one circuit per call |
| `poly/kzg/multiopen/gwc.rs`, `gwc/prover.rs`, `gwc/verifier.rs` | `Model/Gwc` | challenges and the points read from the proof are arguments |
| `transcript.rs`, reading order of `plonk/verifier.rs` and parts | `Model/Transcript` | the hash is any function on byte strings; points through a `Codec` |
| writing order of `plonk/prover.rs` and parts | `Model/ProverTranscript` | one proof; random values are arguments |
| `halo2curves` `derive/field.rs`, `bn256/fq.rs`, `bn256/fr.rs`, `arithmetic.rs` (adc, mac) | `Model/FieldArith` | 64-bit words with carries; the variant without assembly; `pow` of the external crate is square-and-multiply |
| `halo2curves` `bn256/assembly.rs` (feature `asm`, off by default and in this project) | `Model/Asm` | the instructions one by one, with registers, carry flag and zero flag; other flags dropped |
| `halo2curves` `derive/curve.rs` | `Model/Curve`, `Model/PointCodec` | over any field; `square` is the product with itself, `invert().unwrap_or(zero)` the inverse; constant-time selection is `if`; uncompressed encoding, `batch_add`, endomorphism and hashing to the curve dropped |
| `halo2curves` `bn256/fq2.rs`, `fq6.rs`, `fq12.rs`, `final_exponentiation` in `bn256/engine.rs` | `Model/Tower` | over any field; tables in Montgomery form as in the source; bytes and random elements dropped; square roots are in `Model/Roots` |
| `halo2curves` `bn256/fq2.rs` `from_bytes`, `to_bytes`; compressed encoding of G2 | `Model/G2Codec` | panics explicit |
| `sqrt_tonelli_shanks` in `halo2curves/src/arithmetic.rs`, `sqrt` in `bn256/fr.rs`, `sqrt` and `legendre` in `bn256/fq2.rs` | `Model/Roots` | over any field; constant-time selection as `if`; `pow` comes from crates outside the repository |
| `halo2curves` `bn256/engine.rs` (`G2Prepared`, `multi_miller_loop`, `pairing`, `Gt`), G2 part of `bn256/curve.rs`, `poly/kzg/msm.rs` `check` | `Model/Pairing` | over any field with the tables decoded; points with coordinates in the field; random elements, serialisation of `Gt` and `into_subgroup` (unimplemented) dropped |
| `ckb_bf_prover/src/main.rs` `prove_and_verify`, `ckb_bf_verifier/src/main.rs` as a whole | `Model/OnChain` | the parts above put together, bytes to exit code; the hash of the key is any function of it; keys and parameters with points off the curve give an unspecified result |
| `poseidon` crate | `Model/Poseidon`, `Model/Grain` | over any field, `Grain` for bn256 `Fr`; the sponge with any permutation; bytes of generated numbers as numbers; loops with fuel; rate 0 dropped |
| `plonk/assigned.rs`, `poly.rs` `batch_invert_assigned` | `Model/Assigned` | over any field; `batch_invert` of the external crate `ff` as two loops |
| `halo2_proofs` `dev.rs`, `dev/util.rs`, `dev/failure.rs` (which failure, not its printing), `plonk/circuit.rs` `evaluate_lazy`, `identifier`, `complexity` | `Model/MockProver` | synthesis is the list of calls that the layouter makes; the challenge phases dropped (no challenges); `verify_par` with the chunks as a parameter |
| `halo2_proofs` `circuit/floor_planner/single_pass.rs`, `circuit/floor_planner/v1.rs`, `circuit/floor_planner/v1/strategy.rs`, `circuit/layouter.rs` `RegionShape` | `Model/FloorPlanner` | any circuit, as the list of calls in each region, for each of the two passes; no tables; row numbers are natural numbers; the assignment that is written to accepts every call; unstable sorts are any permutation that sorts |
| `poly/ipa/multiopen.rs`, `multiopen/{prover,verifier}.rs` | `Model/IpaOpen` | any group; challenges as arguments; loops over all sets written set by set |
| `poly/ipa/{commitment,msm,strategy}.rs`, `commitment/{prover,verifier}.rs` | `Model/Ipa` | any group; challenges as arguments; `g_lagrange`, `new` and `read` left out |
| `halo2_gadgets` `utilities.rs`, `utilities/{cond_swap,decompose_running_sum,lookup_range_check}.rs` | `Model/Gadget` | over prime fields (swap: any field); a chip is its gates and lookups, a run is the list of calls in its region; `PrimeFieldBits` as the bits of the canonical number, 256 of them; bit conversions of lists longer than 64 dropped |
| `halo2_gadgets` `poseidon.rs`, `poseidon/pow5.rs`, `poseidon/primitives.rs`, `primitives/{mds,p128pow5t3,fp,fq}.rs` | `Model/Pow5`, `Model/Pasta` | any field; rate = width − 1 as asserted; the two generator loops of `mds.rs` are left out (the numbers are arguments), Grain too; `squeeze` of the gadget takes what is there first; the moduli of the Pasta fields are in a crate outside of the repository |
| `halo2_gadgets` `ecc/chip/{witness_point,add_incomplete,add}.rs` | `Model/Ecc` | any field and any b; `Assigned` values are numbers, as inverses are taken with zero going to zero in both; the point cells have the caller's columns |
| `halo2_gadgets` `ecc/chip/mul.rs`, `ecc/chip/mul/{incomplete,complete,overflow}.rs` | `Model/EccMul` | the check that is made in tests only is left out; `ScalarVar::FullWidth` (`todo!()` in `ecc/chip.rs`) is not modelled |
| `halo2curves` `secp256k1/{fp,fq,curve}.rs`, `derive/field.rs` (`dense`) | `Model/Secp` | `pow` is of the crate pasta_curves and taken as square and multiply; `random`, `ZETA`, `DELTA`, `get_lower_32` dropped; the group law is that of `Model/Curve` |
| `halo2_gadgets` `ecc/chip/mul_fixed.rs`, `ecc/chip/mul_fixed/full_width.rs` | `Model/EccFixed` | the multiples computed outside the circuit are those of `halo2curves` (C75), not of the crate `pasta_curves`; the check made in tests only is left out; the tables are any that fit the point |
| `halo2_gadgets` `ecc/chip/constants.rs`, `halo2_proofs` `arithmetic.rs` (`lagrange_interpolate` over any field) | `Model/EccTables` | multiples as in `Model/EccFixed`; the square root is a parameter; roots are elements, not bytes; `test_lagrange_coeffs` is left out |
| `halo2_gadgets` `ecc/chip/mul_fixed/{short,base_field_elem}.rs` | `Model/EccFixedShort` | as above |
| `halo2_gadgets` `sinsemilla/{chip,message}.rs`, `sinsemilla/chip/{hash_to_point,generator_table}.rs`, `sinsemilla/primitives/sinsemilla_s.rs` | `Model/Sinsemilla`, `Model/SinsemillaTable` | Q is fixed (as `hash_to_point.rs` has it) and not the identity; `witness_message_piece` is one assignment |
| `halo2_gadgets` `sinsemilla/merkle.rs`, `sinsemilla/merkle/chip.rs`, `sinsemilla.rs` (`from_subpieces`) | `Model/Merkle` | the loop of `calculate_root` gets the chip, the sibling and the bit of each layer as a list; constants are constraints in the same region; the check made in tests only is left out |
| `halo2_gadgets` `sinsemilla.rs` (`CommitDomain`), `ecc.rs` (`NonIdentityPoint::add`) | `Model/SinsemillaCommit` | that the chips of the arguments are the same is taken for granted; regions are numbered one after the other |

### Not modelled

Hardness assumptions, Fiat–Shamir, uncompressed encodings of points, hashing with blake2b, threads, timing, memory exhaustion, the
CKB VM itself. A cheating prover is modelled at the level of column assignments
(which assignments the constraints accept) and, for C46 on, as a sender of polynomials,
not at the level of proof bytes. C51 and C52 are about bytes, for the honest prover; C54
is about a prover that sends commitments to polynomials; C53, C55 and C56 are about any bytes.

## Properties

Status words: *prove* = theorem for all inputs; *refute* = the property is false
of the code: prove its negation with a concrete witness and a `_partial` theorem
for the part that does hold.

* **C01, C02** prove. Model `compileToU16` as a left fold over bytes with state
  (instrs, jstack). Spec: source text filtered to commands; compiled position of
  a command = number of words emitted before it; `Matches src i j` by bracket
  counting, independent of the stack. Invariant over prefixes: the stack holds
  the operand positions of the currently open brackets.
* **C03** refute: `[` compiles. Partial: compilation fails exactly when some
  prefix has more `]` than `[`.
* **C04** refute with 65535 `+` followed by `[]`: word 0 is overwritten. Partial
  is C02 (length at most 65535).
* **C05, C06** prove by simulation. Spec: `BF.step` on the source text itself
  (program counter in the text, matching bracket by counting, tape as a function
  on naturals). Simulation relation between source state and interpreter state;
  one source step = one interpreter step.  Bound 2^62 on steps because addresses
  are cast to `usize` and the pointer is compared in the field.
* **C07–C12** prove as invariants of the interpreter loop plus facts on stable
  sorting.
* **C13, C14** prove: closed forms for the columns filled by `load_table`, then
  each gate by case analysis on the opcode.
* **C15** refute with program `+` and input `a`; partial is C14 and the exact
  criterion.
* **C16** refute with 255 `+`; exact criterion as theorem.
* **C17, C18** prove by field reasoning.
* **C19–C23** refute with concrete assignments valid for all challenges
  (`Forgeable`: first-phase columns are chosen before the challenges).
  Partials: `Spec.Repaired` lists the constraints the circuit lacks (equal
  nonzero starts of the products; sums that start from 0 and stop with the table;
  order of the memory table; first, last and successive rows of the instruction
  table; no row past the end; number of reads). `C19_sound_partial`: for any
  first-phase columns, any circuit shape, the challenges for which an assignment
  that meets them is accepted and is not a genuine execution are at most `n` in
  `P` (`Rare`). Proof: an accepted assignment gives equations between table
  products and sums (`Facts`); by C24/C25 either the first-phase columns are
  linked (same memory rows, same fetched rows, same program words, same input)
  or the challenges are in a small set; linked columns are followed row by row by
  the textbook machine (`rows_genuine`). `C19_repair_keeps_honest_partial`: honest
  assignments meet all the extra constraints. What is missing for the full
  C19–C23 is exactly that the code does not impose these constraints.
* **C24, C25** prove with polynomial roots counting (Schwartz–Zippel for the four
  challenges of a product, unique factorisation for "rearrangement").
* **C26** prove: the columns rebuilt by the verifier are stated as `length :: words`
  of the witness bytes (`Spec/Verifier`), and equal the prover's public inputs for
  every compiled program that fits; `C26_capacity` shows the bound is exact.
* **C27** refute (odd code length). Partial: the exact set of witnesses that make
  the verifier panic, relative to the key parser and proof verification.
* **C28** prove: each exit code characterised by an equivalence or by a complete
  case list.
* **C29** prove down to limbs; C29_params_canonical: accepted bytes are the
  encoding of what was read (no second encoding).
* **C30** refute with `,[-]` on inputs 1 and 2 (same `k`, different selectors).
  Partial: the circuit is the same iff the table lengths are the same.
* **C31** prove: invariant `Placed` over any sequence of regions (`Spec/Regions`
  says which cells an operation uses); regions sharing a column are disjoint, each
  starts at the least row allowed, writes are kept.
* **C32** prove: `process` returns a partition of the selectors into combinations
  whose members exclude each other (`Combos`); values of the column and of the
  replacement by root counting in the field. `C32_same_meaning`: `Satisfied` before
  and after compression agree for every sane constraint system, hence for the
  brainfuck circuit (`C32_circuit`); the degree is kept (`C32_degree`); no panic.
* **C33** prove: invariant between the arrays of `Assembly` and a permutation with a
  representative per class (`Reps`); merging is multiplication by a transposition.
  The loop is modelled with fuel; any fuel of at least columns × rows suffices.
* **C34** prove on a byte-level model: constants of expressions in Montgomery form as
  four limbs, queries with their index in the recreated constraint system, big-endian
  counts. A written key is a sequence of fields each of which is read back.
* **C44** prove: at most three selectors are off in row 0 (the ad hoc selector, input,
  output), so at least twelve are in combinations of their own and short; sizes are
  added up over the combinations.
* **C35** prove: invariant `Good` (the values of the calculations so far) kept by every
  `add_*`; sharing, reordering and the shortcuts for 0, 1 and 2 keep the value; the last
  calculation is the one wanted because it cannot have been there before.
* **C36** prove: bags of values through the sort, the scan and the fill
  (`LookupLemmas`).
* **C37** prove: combination indices are contiguous and ascending in the assignments,
  so the loop of `ckb_recreate_side_effect` allocates the same columns.
* **C38** refute: key bytes whose selector expressions are the constant 0
  (`voidKey`), for all commitments and all `k` up to 24. Partial: whatever the bytes,
  gates and lookups of a key that is read are those of the circuit with selectors
  replaced.
* **C39** refute with the point (1, 1). Partial: coordinates are canonical.
* **C40** refute for the release build (`k = 60` loops for ever, 63 and 88 are
  accepted). Partial: `IsDomain` (`Spec/Domain`) for every `k` whose extended domain
  exists, and the fate of every other 32-bit `k` for degree 11. Loops are modelled
  with fuel; "never ends" is `hang` for every fuel.
* **C41** prove: the in-place transform is followed round by round (`partialDft`),
  the inverse by orthogonality of roots of unity.
* **C42** prove evaluation and division; refute and prove in part interpolation and
  the Lagrange basis values.
* **C43** prove: multi-exponentiation by windows and buckets, then the two bases of
  commitments. The curve is an arbitrary module over `Fr`.
* **C45** prove: `DELTA` has odd order `(P-1)/2^28` (certificate of its prime factors),
  roots of unity have orders dividing `2^28`; values by interpolation (C41), cycles by
  C33.
* **C46** prove with ideal commitments (`Spec/Piop`: a commitment is the polynomial, a
  prover is a `Strategy` that sees the challenges drawn so far). `claims` of the model
  is the verifier from the evaluations to the list of openings. Round by round: θ
  separates tuples, β and γ make the grand products polynomials in the challenges with
  the bag of cells as roots (`GrandProduct`), y separates expressions, x separates
  polynomials of degree below `11·N`. The circuit corollary counts challenges with
  which a prover without accepted assignment succeeds.
* **C47** prove. Rows first: the honest running products satisfy every expression of the
  verifier in every row (`ProverRows`, `ProverVanish`), so the numerator vanishes on the
  domain; `evaluate_h` computes the parts of its coset values (`ProverH`, C35), and with
  C41 the pieces are the quotient (`ProverQuotient`). The identity at x is then one of
  polynomials (`create_ok`). The witness mixes two syntheses, one per phase; C32 takes
  the honest table of C14 to the compressed circuit. Unlucky challenges are counted.
* **C48** prove. Joint queries carry polynomial and commitment, so both sides build the
  same sets (`intermediateSets_map`); quotients exist because all claims are true
  (C42), and the last polynomial vanishes at `u`. The verifier's two sums are computed
  in closed form (`verify_ok`).
* **C49** prove, for a prover bound to polynomials. If the equation holds at the secret
  and the secret is no root of its difference, it holds as polynomials; at `X = u` it says
  that a polynomial in `u` vanishes; at the point of the false claim its value is a
  polynomial in `v`, whose coefficients are polynomials in `y`.
* **C50** refute: solve the verifier's equation for the last commitment, which is read
  after the last challenge.
* **C51** prove. A run of the prover is unfolded into its steps (`Run`); reading undoes
  writing step by step with equal transcripts (`SyncLemmas`, `ProveSync`); the opening
  claims of both sides are the same polynomials seen through the commitment map
  (`ProveClaims`, `ClaimsNat`); then C47 and C48.
* **C52** prove. Walk through `prove` with a predicate on errors (`Ends`) and the number of
  bytes absorbed and written so far (`Grown`). The lengths also identify the challenges,
  which gives a hash function for which the demo proof is accepted (`exists_accepted`).
* **C53** refute. Every reading step uses a known number of bytes and does not look
  further (`Used`), so bytes after the proof do not matter.
* **C54** prove, combining C46 and C49. The queries the verifier makes about commitments
  are the images of queries about polynomials (`claims_map`); every query is about the
  object its reference stands for, with a value that depends on reference and rotation
  only (`queries_form`), so C49 applies when one of them is false, and C46 when all are
  true.
* **C55** refute. Reading never panics (`Calm`). With a key of the right shape and `x`
  outside the domain the list of claims can be computed (`claims_total`), and the opening
  panics only if `u` is one of its points (`accepts_total`), all rotations of `x`.
* **C56** refute. The proof has the same point for every commitment and zero for every
  scalar; `Eats` says what reading a repeated point or scalar returns. The last point is
  computed as in C50.
* **C57** prove. `Setup` collects what the constants have to satisfy (checked by the kernel for
  both fields); the carry chains are sums of words (`add_limbs`, `sub_limbs`, `mulWide_val`,
  `squareWide_val`), Montgomery reduction divides by 2^256 modulo the prime. `pow` with p - 2 and
  (q + 1)/4 gives inverses and roots. Primality by Pratt certificates.
  `C57_field` makes the stored forms a field, so that everything proved over any field (C58)
  holds of limbs.
* **C58** prove, for any field without characteristic 2 and 3. `JacIs p A`: the coordinates stand
  for the point `A` of Mathlib's group. Each formula is a rational identity after dividing by
  powers of z (`field_simp`, `ring` with the curve equations); the special cases are separate.
  Multiplication: the bits of the bytes, most significant first, are the number. Batch
  normalisation: prefix products and the running inverse.
* **C59** prove. `P • (1, 2) = 0` by running the modelled double-and-add in the kernel; the
  order of the generator is then the prime P. The number of points is a multiple of P, at most
  2Q + 1 (two points for each x), and odd as there is no point of order two (-3 is no cube):
  this leaves P.
* **C60** prove on residues, then transfer to limbs: decoding commutes with a map of fields
  (`fromBytes_map`). Needed: 3 is no square modulo Q (so 0 with the sign bit is refused, and x is
  never 0 on the curve), y is never 0, the root found by a power.
* **C61** prove by composition: C51 and C52 (the proof), C34 and C44 (the key can be read back and
  fits), C29 (the parameters), C26 (the public inputs). Overflow checks in the prover only turn results
  into panics (`Domain.new_checks`), so the verifier, built without, computes the same domain. The
  concrete case is a transaction for the demo program, with scalars as points.
* **C62** refute: C56 carried to the exit code; a forged proof has at most 4512 bytes (`forge_counts`).
  Partial: exit code 0 means that the messages pass (C54 takes over there).
* **C63** refute: with a hash function that always gives 1 the program panics. Partial: it panics only if
  the evaluation point is in the domain or the opening challenge is one of its rotations.
* **C64** prove. The conversation is a list of scalars, points and draws; `encode` gives its bytes, `drawn` its
  challenges. `C64_challenges`: what the verifier draws is `drawn` of the conversation read from the proof;
  `C64_injective`, `C64_bound`, `C64_bound_last`: the bytes tell the conversation, so also code, input and
  messages; `g1_coordsTell`: coordinates tell points of bn256 apart (infinity is sent as zeros, which is not a
  point).
* **C65** prove. `Above K` says what u, v, w are in a field `K`; the values of stored elements are sums in `K`.
  The rings are fields because -1 is not a square, 82 (the norm of 9+u) not a square and not a cube modulo q.
* **C66** prove, by induction on i; the entries of the tables are powers of one constant, which the kernel
  compares with (9+u)^((q-1)/6).
* **C67** prove as an equivalence; `C67_other`: an element for which it is not the square.
* **C68** prove; the exponents of the addition chain are added up as integers.
* **C69** refute with elements whose third coordinates are not zero; partial: it is right about the others.
* **C70** prove. That the order of the twist is `P (2 Q - P)`: it is at most `2 Q² + 1` by counting, the generator has order `P`,
  another point has order `2 Q - P` (with the factorisation of that number, checked by Pratt certificates), the two
  are coprime, so their product divides the order; there is no point of order 2, and three times the product is too large.
* **C71 to C73** prove. No divisor theory is used. The Miller loop is followed line by line; a line through points of the
  twist is described by the three points where it meets the curve; for two lines, one with coordinates in the base field and one on the
  twist, the product of the values of the first at the three points of the second is up to sign the product of the values of the
  second at the three points of the first (`Lemmas/PairLine`, `PairCayley`: a computation in the coordinate ring). After the final
  exponentiation the signs and the vertical lines disappear, and the loop gives a function that is additive in both places
  (`PairLoop`, `PairLinear`). Not degenerate: the kernel computes the pairing of the generators and finds it other than 1; the rest is
  that both groups are cyclic of prime order.
* **C74** prove from C71 to C73; the loop for several pairs is the product of the loops.
* **C75** prove. **C77** refute: `Gt::default()` is 0.
* **C76** prove: C61 and C62 applied to the group of C59, the encodings of C60, the group of C70 and the pairing.
* **C78** refute with two programs of 513 words. `C78_folds` for the whole truth: the equations depend on the public inputs through
  the columns folded to the number of rows. Partial: columns that fit are told apart but for `2^k - 1` values of `x`.
* **C79** instructions as data and a step function; `C79_refuted` with a concrete element, for every initial state (`writesFirst`: the
  results depend on nothing that is not written first). `C79_partial` by blocks: a multiply-and-add block adds the product exactly
  unless its last `adc r, 0` overflows; blocks put together give the product, then the four rounds, then the two subtractions.
  Missing: the elements for which such a carry is lost, and there it is false.
* **C80** `Check.Holds` states the twenty checks. `C80_enough` goes beyond C19–C23: the position of the first instruction row and "the
  last row has no instruction" are not among the checks, they follow (`last_fetched`, `fetch_inside`), and the result is a halted
  run. `C80_each_needed` has tables for each check (`NeededChecks`): `rig` builds an accepted assignment from any locally correct
  tables and any starting values, `Passes` says what each check means for it. The challenges left out are those for which the
  product over the processor rows is 0 (`rare_zero`); for most checks there are none. `C80_honest` from C19.
* **C81** prove. Spec `permutation`: rounds as in the paper. `full_rounds` and `partial_rounds` move the constants behind the powers
  (`M (S v + M⁻¹ c) = M S v + c`; only the first element of a partial constant has to stay). `sparse_fold`: the matrix in
  front of a sparse one is `diag(1, m)`, which commutes with what acts on the first element. `C81_parameters`: the lower part of the
  accumulated matrix is a power of that of the original one.
* **C82** refute, and prove the exact condition. Invariants of the elimination (`Inv`): left part = right part times the matrix; cleared columns
  stay cleared; leading minors from the current column on do not change. Cauchy matrices: a vector in the kernel gives
  a polynomial of degree below `n` with `n` roots. The matrix of `C82_new_panics` has a lower right part whose square has 0 in the corner.
* **C83** prove. `absorb_eq`: full blocks are absorbed, the rest waits.
* **C84** refute for all inputs; `drawn_eq`: a history is the sponge on its padded messages.
* **C85** partial. `masks` has each of the first 240 bits of the register as a sum of the first 80, and `inverse` each of the 80 as a
  sum of the bits at 80, 82, ..., 238 (checked by the kernel); so these are not all 0, and the loop for a bit ends. Missing is
  that the loop for a number ends; it would take properties of the shrunken sequence. `C85_generate` says what comes out, from the
  fields of the seed to the entries of the matrix, with the specification `Seeded`, `Many`, `Below`, `Group`.
* **C86** refute; `bitsOf_inj` for the exact condition.
* **C87** refute, with witnesses, and prove for circuits that keep to conventions. `MockValue`: a `Value` with poison against the value of
  the polynomial. `MockScan`: the sorted merge of lookups against membership. `MockVerdict`: every check of `verify` against the
  clause of `Satisfied` that it stands for. The conventions: lookups refer to usable rows, gates have a selector as a factor, regions assign
  what the gates of their selectors refer to (`Tidy`), copied cells are both assigned or both not (`CopiesAlike`). `C87_par` for the parallel variant. `C87_report_*`: the
  failures name exactly what is wrong (`MockReport`).
* **C88** prove: the conventions hold for the circuit whatever the matrices are, as long as two of them are not empty (`main_tidy`); then C87 and,
  for runs, C19. `C88_missing_zeros`: public inputs that differ by zeros at the end give the same result.
* **C89** prove: `Assigned` as written (the guards of its patterns included), each operation against the element a fraction stands for (`worth`), then
  any formula by induction. Batch inversion of the crate `ff` as its two loops; zeros are skipped (`batchBack_products`).
* **C90** false: `C90_first_bytes` (the prover of `Model/ProverTranscript.lean`, any circuit: the proof starts with the encodings of the commitments to the
  first-phase columns with last entry 1), `C90_reveals` (columns that differ in one cell have different commitments, because a Lagrange basis
  commitment with a secret that is no root of unity is `coefficient * generator` with a non-zero coefficient), `C90_not_hiding` (the circuit accepts any output
  table, C19, so there are two good witnesses that differ in one cell). `Hides` is stated over what can be seen for some random values, so it
  is weaker than zero knowledge; its failure is the stronger statement. `C90_demo` has no hypotheses. `C90_program_input_partial`: an honest proof depends
  on nothing but program, input and random values, all of which are public here.

* **C91** prove. `Model/FloorPlanner` takes what a circuit does in each region, once per pass. `Spec.Laid` says what a layout must be: exactly
  the calls of the circuit (`Puts`, `Supplies`), cells of different regions apart, a cell of its own for each constant. V1: the allocations of a column
  are a sorted list of disjoint intervals that are exactly the regions placed so far (`Holds`); the search finds the least row that is clear in all columns
  (`firstFit` returns the least solution in its window; the two assertions and the `expect` hold by the same invariant), so the order of the
  columns does not matter and overlapping is impossible. `Spare` describes the cells for constants. Single pass: invariant
  `SoFar` (a correct layout of the regions done, below what is counted as used). `C91_v1_refuses` is F33. The hypothesis `Covered` is
  needed: an example shows a region with a row that was not measured written over another one.

* **C92** refute, and prove the half that holds. `Model/Batch`: the verifier of C54 with an accumulator. `batch_iff`: what is checked is the sum of
  the proofs' equations with powers of the factor. `C92_complete` follows. `C92_false`: with `u ≠ u'` the two equations (for the part multiplied by
  the secret, and for the rest) are solved for the last commitments of two proofs, everything before them being arbitrary; it gives the same
  proofs for all parameters, while alone the first one is accepted for at most one secret. `C92_random_partial`: the sum is a polynomial in the factor
  (after a linear functional that does not kill the bad proof's part), so it has fewer roots than proofs. What is missing for the full claim is
  randomness in the code. The factor is an argument of the model: its value (a ChaCha20 output) is not computed, only that it is fixed and known.

* **C93** prove. `Model/Gwc`: groups of queries, the prover's quotients, the verifier's two sums. `groups_ok`: grouping loses and invents nothing, so there
  are as many groups as points. `accepts_value`: with commitments to polynomials, the check is that a polynomial in `u`, whose coefficients are the defects
  of the groups at the secret, is zero; it never panics, because every group has a query. `C93_sound`: with a false claim the defect of its group is not the
  zero polynomial unless `v` is a root of a polynomial with fewer roots than claims; then one of its coefficients is not zero, and so on for `u` and the secret.
  Unlike SHPLONK (C48, C55), no challenge is exceptional for true claims and none makes the check panic.

* **C94** prove. Both loops of Tonelli-Shanks as folds over the variables of the
  code. Invariant of the outer loop: either `x² = f b`, `b` has order dividing
  `2^(maxV-1)`, `z` has order exactly `2^v`; or the root was already found
  (`x² = f`) and `b`, `z` are ±1, in which case later rounds only change the sign
  of `x`. Non-squares: the check at the end. In the extension: with
  `α = a^((q-1)/2)` the norm of `α` tells squares from non-squares, `α = -1` means
  that `a^((q+1)/4) u` is a root, otherwise `(1+α)^((q-1)/2) a^((q+1)/4)` is one.

* **C95** refute, and prove what holds. `decode2_eq`, `encode2_eq`: both directions in terms of the two numbers in the bytes. The square root is
  C94; the constant of the twist is not a square, so x is never zero and the all-zero string is free for the point at infinity. `C95_same` says exactly
  which encodings collide. The witness of `C95_not_all` has y = 2u; it is on the curve, not known to be in the group of order p. `C95_subgroup` uses a point
  of order dividing the cofactor. F35.
* **C96** prove, **C97** refute. `Model/Ipa`: prover and verifier of the inner product argument over any group that is a module over the
  scalars, the sums `MSMIPA` with their map from x coordinates, both strategies. `Spec/Ipa`: what a commitment opens to, independence, adaptive provers,
  coefficients of points. Soundness: the points that are spanned by `w` and the generators with their share of `u` form a subspace, folding makes it
  smaller, and a point outside stays outside but for two challenges (a linear functional gives a quadratic polynomial). A curve has no independent points, so
  `C96_binding` says the same of coefficients: outside of few challenges the prover has coefficients, not all zero, which are a relation if the proof is
  accepted. `C96_curve`: the coordinates of curve points are lawful. Examples: the module of coefficients with two generators, and the scalars as a group,
  where there are relations. The transcript is left out: challenges are arguments. F36, F37.
* **C98** prove, **C99** refute. `Model/IpaOpen`: the grouping of queries and both sides of the opening of many queries with the inner product
  argument. `Lemmas/IpaOpenSets`: the sets, their points and values; `IpaOpenVerify`: the verifier tests one equation (`accepts_eq`); `IpaOpenSound`:
  pairs of a point and a value it opens to form a subspace, so a combination with powers of a challenge of pairs not all inside is inside for few
  challenges only (`x1`, `x4`), a polynomial identity gives the rest (`x2`, `x3`), then C96; `IpaOpenComplete`: the prover's quotients. For a curve
  `C98_binding`, as in C96. C99: the functions that group the queries are shown not to depend on the value of a repeated query, so that the verifier's
  whole answer does not; with C48 and C98 such a list is accepted. With one quotient per point (C93) contradictions are caught. F38.

* **C100** prove. `Verif.Gadget.Expr` is `Expression` over any field. The range
  check is a product of differences, so it vanishes on its roots only; bits are
  bits of the canonical number.
* **C101–C103** prove, C102 in part. `Spec/Gadget` says what the constraints of a
  chip are for *any* content of the cells (`Sat`: what copies and constants
  enforce, the gates in all rows where the selector is enabled, the lookups in
  all rows) and what an honest prover writes (`Follows`: the values the chip
  assigns). Soundness: from `Sat` alone. Completeness: `Follows` gives `Sat`.
  `Covered` and `SameCall`: the gates read only cells that are assigned, and the
  layout does not depend on the values. The window sums are solved from the end:
  z(i) = w(i) + 2^k z(i+1) with z(n) = 0 gives a number below 2^(k n), which is
  the number itself if that is at most the modulus; else the theorem does not
  hold, `C102_ambiguous` has two contents for the number zero.

* **C104, C105** prove. `Model/Pow5` has the function on numbers and the chip, as
  lists of calls per region. The specification is the permutation of C81
  (`Spec/Poseidon`) and a sponge with the length of the message in the last place
  (`Spec/Pow5`). A region is solved row by row: full rounds give the next row
  directly; a row of two partial rounds says `M⁻¹ next = S(M S(row + c) + c')`,
  which with `M M⁻¹ = 1` is the next row. Absorbing word by word is shown to be
  the same as folding over padded blocks, for numbers and for cells alike. The
  inverse of a Cauchy matrix (`C104_inverse`) by Lagrange interpolation. That the
  Pasta moduli are prime: Pratt certificates. The chip does not look at the S-box
  of the parameters (`C104_sbox`): for parameters with another S-box the theorems
  have a hypothesis that is not met, and the circuit computes with x^5.
* **C106, C107, C108** prove; C108 is false. `Model/Ecc` has the three chips; points
  are those of Mathlib's Weierstrass curves (`Spec/Ecc`: which point a pair of cells
  holds). Complete addition: the twelve equations are solved by cases on the points
  (`Lemmas/Ecc.addEqs_sound`), and the numbers that the chip assigns meet them
  (`addEqs_complete`). `Usable` says that no point of the curve has a coordinate
  zero; for Pallas by Euler's criterion with exponents in the kernel
  (`C106_pallas`). That the cells given contain points is a hypothesis of addition:
  C106 gives it for witnessed ones, C107 for sums.
* **C109** is false. `Model/EccMul` has the loops, the last three bits, the last bit
  and the check of overflow, as calls in four regions. What holds
  (`C109_sound_partial`): after `s` bits that make up `K` the accumulator is the
  multiple by 2^s + 2K + 1 (`Lemmas/EccMulLoop.loop_points`); none of the additions
  is exceptional as these numbers are below the order; the check of overflow gives
  that the bits are those of α + t_q and not of another representative
  (`Lemmas/EccMul.overflow_exact`). The order of Pallas is proved, not assumed
  (`C109_order`: the generator has prime order q, and there are at most 2p + 1 < 2q
  points). The negation (`C109_not_sound`) is a table of
  numbers for all cells, of which the kernel evaluates every gate, copy and lookup;
  a second table, of an honest prover, meets the hypotheses of the partial theorem.
  Completeness (`C109_complete`) holds without conditions on the number: the chip
  never fails for a base other than the identity, no slope is divided by zero, and
  the honest prover meets the gates, copies and lookups of all four regions. The
  hypothesis that selectors are distinct is what `configure` gives. For the
  identity the chip returns an error (`C109_identity`). While the base is unknown
  it always succeeds (`C109_runs`), with the same calls (`C109_keys`).
* **C110** prove. `Model/Secp` has the `dense` variants of the arithmetic, for primes
  that take all 256 bits: sums and reductions have a carry above the four limbs, which
  takes part in the final subtraction. As for C57: `Stands` says which limbs stand
  for which residue, every operation is followed limb by limb with the carries
  (`Lemmas/Secp`), and the powers, inverses and roots follow. Primality by Pratt
  certificates (`Lemmas/PrattSecp`). The order of the group (`C110_group`): the
  generator has prime order q, there are at most 2p + 1 < 3q points, and no point of
  order two, as −7 is no cube. `ZETA` and `DELTA` of both fields and the roots of unity of the
  base field are not modelled where the code says `unimplemented`.
* **C111** is false. `secpIO` states the bytes and roots over residues, and `C111_io`
  that they are those of the limbs. Round trip (`C111_roundtrip`), soundness
  (`C111_sound`) and injectivity (`C111_injective`) hold; for the point at infinity one
  needs that 7 is no square, so that there is no point with x = 0. Uniqueness
  fails (`C111_not_unique`), exactly by the bits ignored (`C111_unique_partial`).
* **C112**, **C113** and **C114**: `Model/EccFixed` and `Model/EccFixedShort` have the
  three variants of fixed-base multiplication. `Spec/EccFixed` says what a table of a
  fixed point is (`TableOf`): for each of the windows the polynomial of degree 7 gives
  the first coordinates of (k + 2)·8^w times the point, y + z is the square of the
  number in the table, and −y + z is no square. That there are such tables is shown
  for the point (−1, 2), with 85 and with 22 windows (`fullBase_table` and
  `shortBase_table` in `Lemmas/EccFixedShown`; the numbers come from a program and are
  checked by the kernel). Soundness (`C112_sound`): the range check makes each digit one of 0 to 7,
  the three polynomials of the coordinates leave no point but that of the digit, and
  before each incomplete addition the accumulator is a smaller multiple than any of the
  next window, so no exceptional case arises, whatever the digits.
  `C113_sound` adds that the last window is one bit and that the sign is a square root
  of 1; `C114_sound` that the digits are those of the number below p: the
  checks exclude x + p. Completeness (`C112_complete`, `C113_complete`,
  `C114_complete`) has no conditions but those on magnitude and sign. Keys:
  `C112_runs`, `C112_keys` and so on.
  The examples are cells of honest provers for 5, −1000 and p − 1 times (−1, 2), checked
  against all constraints by the kernel, with the products computed independently.
* **C115** is false, in two ways. `MulFull.mul` is `FixedPoint::mul` with the
  scalar as the API has it: a value, and windows once it was used. Each multiplication
  by a scalar without windows witnesses its own; with the cells `twoScalars` one scalar
  is 5 in one multiplication and 6 in the other (`C115_not_tied`). A scalar with windows panics
  (`C115_again`). `C115_partial`: if the windows of two multiplications are equal, so
  are the numbers. For the two other variants the number is in cells that are
  copied, so that C113 and C114 give this.
* **C116**: `windowTable` is shown to contain the points that `windowPoint` (of the
  specification) names, none of them the identity for 2 to 85 windows as Pallas has prime
  order. `lagrange_interpolate` is proved over any field. `C116_coefficients`,
  `C116_search` (no panic, success if and only if fitting numbers exist, the least is
  returned), `C116_table` (both results make a `TableOf`), `C116_one_panics`. The example
  shows that the search succeeds for (-1, 2) with 85 and with 22 windows.
* **C117** is false: the check zips the lists, so what is missing is not checked
  (`C117_first_part`, `C117_empty`, `C117_not_checked`). `C117_partial`: with lists of the
  right lengths, passing is equivalent to `TableOf`.
* **C118**: `hashOf` (specification) folds `(A + S_m) + A` with incomplete additions over the
  group of Mathlib. `C118_sound` follows the rows: the lookup gives the words and the
  generators, the two gates give the slopes and the doubled y coordinate, and the digits
  are unique since a piece has fewer bits than the field. `C118_complete`, `C118_runs`,
  `C118_keys`. `C118_generators` evaluates the curve equation on all 1024 constants and
  compares the x coordinates (modulo a number for which they differ). The examples hash 3, 700, 1023 in two pieces from (-1, 2) with the
  code's constants; the cells and the result were computed apart from the model.
* **C119** is false: the empty message leaves the second coordinate free (`C119_empty`), and an
  honest prover fails on it (`C119_honest`); 253 words panic (`C119_longest`), as does a piece
  without words (`C119_wordless`). `C119_partial`: for the rest the result is determined.
* **C120**: `LayerHash` and `Path` (specification) speak of numbers below 2^255 that stand for the
  children and of the 52 words of the layer number and these. `C120_layer_sound` puts the digits of
  the three pieces (C118) together with the range checks (C103) and the gate; `C120_path_sound` is an
  induction over the layers with the conditional swap (C101). `C120_layer_complete` is for one layer, with
  selectors that differ; `C120_runs`. The examples are the hash of 5 and 7 in layer 3 and a path of
  one layer, cell by cell.
* **C121** is false: 5 and 5 + p both have 255 bits and stand for the same element
  (`C121_ambiguous`, with all 52 rows for both). `C121_partial`: all children from 2^255 − p on have
  one encoding.
* **C122**: `commitOf` (specification) is the hash plus the multiple of R. `Meets` asks for the gates of
  both chips and the lookup in all four regions. `C122_sound` puts C112, C118 and C107 together;
  `C122_complete` also needs that each chip enables its own selectors only. `C122_short_sound`,
  `C122_runs`, `C122_used`. The example is the commitment to three words with the scalar 5, cell by
  cell.
* **C123**: Pallas has prime order (`pallas_card`), so R generates it: `C123_hiding`. `C123_any` carries
  it over to the circuit with C122.

## Findings

Recorded below as they are proved.

* **F1 (C03)** `[` with no `]` is accepted by the compiler; only a surplus `]` is
  rejected. `C03_refuted`.
* **F2 (C04)** Word positions are kept as `u16`: 65535 `+` followed by `[]`
  overwrites word 0 of the program without an error, even with overflow checks.
  `C04_refuted`.
* **F3 (C05)** An empty program (no commands) makes `run` panic at `code[0]`;
  C05 therefore requires at least one command.
* **F4 (C15)** The prover binary puts the whole raw input into the public inputs,
  the circuit compares its length with the number of bytes *read*. A run that
  leaves input unread can therefore not be proved: the circuit accepts the
  honest trace exactly when no input is left. `C15_false`,
  `C15_accepts_iff_input_read_partial`.
* **F5 (C16)** `k` is chosen from the instruction table length alone, without the
  6 unusable rows and the extra final row: 255 `+` gives 511 rows, `k = 9`, and
  synthesis fails. Exactly `instruction rows + 7 ≤ 2^k` is needed. `C16_false`.
* **F6 (C19, C20, C23)** The running-sum columns have one row more than their
  selector: the last cell, the one compared across tables, is constrained by no
  gate. Input, program and output of the trace are therefore not tied to the
  public inputs and to the output table. `C20_forge`: the trace of any program on
  any input passes for any other with the same table lengths. `C23_forge`: any
  output is accepted. `C19_false_input`, `C20_false`, `C23_false`.
* **F7 (C19)** The memory table checks that a cell changes only with the clock
  moving, not that the clock grows: rows of one cell may be listed out of order,
  so a cell can be made to forget a write. `C19_false` (`+><.` prints 0).
* **F8 (C21)** The first cells of the running products are plain advice. Starting
  from 0 makes both product arguments vacuous. `C21_forge`, `C21_false`.
* **F9 (C22)** Nothing constrains the last processor row: an endless loop passes
  for a finished run. `C22_false`.
* **F10 (C27)** The verifier panics (does not exit with a code) on a code witness of
  odd length, on 1024-word programs and on 1024-byte inputs: the length goes into
  element 0 of a buffer of 1024 elements. `C27_false`, `C26_capacity`.
* **F11 (C30)** Selectors and copy constraints depend on the table lengths of the
  trace, so one program needs as many verifying keys as it has trace lengths.
  `C30_false`, `C30_program_iff_partial`.
* **F12 (C39)** The raw format documented as checking that points are on the curve
  only checks that coordinates are below the modulus; the verifier's parameters
  may contain points off the curve. `C39_false`, `C39_false_params`.
* **F13 (C40)** `k` of a verifying key is read from the witness and shifts a 64-bit
  one. Without overflow checks `k = 60` makes the search for the extended domain
  loop for ever (`10·2^60` exceeds every shift); `k = 63` (limit 0) and `k = 88`
  (shift modulo 64) build a domain whose size is not `2^k`. All other `k > 24` end in
  an assertion. `C40_domain_false`, `C40_rejected_partial`.
* **F14 (C42)** `lagrange_interpolate` is documented to panic on equal points; batch
  inversion skips zeros, and a polynomial through neither value is returned.
  `C42_interpolation_false`.
* **F15 (C42)** `l_i_range` returns 0 for every basis polynomial at every point of the
  domain. The verifier's challenge is there with negligible probability only.
  `C42_basis_false`.
* **F16 (C38)** The verifying key comes from the transaction. Its selector expressions
  can be the constant 0: the key still fits and is read, and every gate and the lookup
  then hold for any assignment, program, input and output.
* **F17 (C50)** The parameters are made from the constant 42 (`GOD_PRIVATE_KEY`). The last
  commitment of a proof enters only the final equation, and whoever knows the secret can
  solve it: any commitments open to any values. `C50_forgery`.
* **F18 (C53)** The verifier reads a fixed number of bytes and does not check that the
  proof ends there: an accepted proof followed by any bytes is accepted. `C53_false`.
* **F19 (C56)** With the known secret, bytes accepted for any program and any input can be
  computed without running anything; an endless loop is the example. `C56_circuit_false`.
* **F20 (C55)** The verifier panics, instead of rejecting, when the evaluation point is
  one of the `2^k` points of the domain: it inverts `x^n - 1` and unwraps. `C55_false`.
* **F21 (C60)** `common_point` and `write_point` have an error "cannot write points at infinity
  to the transcript". For bn256 it never occurs: the coordinates of infinity are (0, 0), and the
  check that `coordinates` makes accepts them. `C60_coordinates`.
* **F22 (C69)** `Fq6::is_zero` looks at two of three coordinates, and `Fq12::is_zero` inherits it. Neither is
  called when proofs are verified. `C69_refuted`.
* **F23 (C77)** `Gt::default()` is derived and gives 0, which is not an element of the group; the identity is 1. For
  the curves `default()` is the identity. Not used when proofs are verified. `C77_refuted`.
* **F24 (C70, C74)** `C74_check` needs the points of the second group in the parameters to be in the subgroup. The reader of
  the parameters checks neither this nor that they are on the curve, although `is_torsion_free` is there and right.
* **F25 (C78)** The prover fails with `InstanceTooLarge` on public inputs that are longer than the circuit. The verifier has the check only for
  schemes that commit to public inputs, which this one does not. It evaluates public inputs beyond row `2^k` as if they were added to those
  in the first rows: programs that differ by exchanging words 512 apart are one statement for a key with `k = 9`, although
  they print different things. `C78_false`.
* **F26 (C79)** With feature `asm`, `mul`, `square` and `montgomery_reduce` (hence `to_repr`) are wrong for some elements: each block ends with
  `adc r, 0` and the carry out of it is dropped. The element whose stored limbs write `2^192 - 1` is one, in both fields. A
  register has to be all ones when a carry comes in, so random tests will hardly meet one (an estimate, not proved). The feature is off in this project. `C79_refuted`.
* **F27 (C80)** Two wrong runs that were not among those of C19–C23: a program that moves left of cell 0 and prints is accepted (`<.`, the
  memory table starts with cell `P - 1`), and so is a run that goes on after the end of the program (position after the last word
  listed with the word `[` and target 0: `.` prints twice). `C80_each_needed` for `memFirst` and `running`.
* **F28 (C82)** `Matrix::invert` does not exchange rows, so it panics on invertible matrices with a vanishing leading minor; its comment says that
  it "won't even alarm" on singular ones, but it panics on all of these. `Spec::new` can panic for an MDS matrix (`C82_new_panics`).
* **F29 (C84)** `squeeze` of the Poseidon hasher leaves no trace of having been called but a permutation: absorbing `x, 1` at rate 2 and drawing
  gives the second challenge after absorbing `x`. The transcript has the prefixes that would tell them apart commented out.
* **F30 (C86)** `Grain::generate` cuts the numbers of rounds to 10 bits without a check.
* **F31 (C87)** The mock prover is not an exact oracle. It accepts a lookup whose table row lies beyond the usable rows (`C87_accepts_wrong`); it
  refuses satisfied assignments when a cell with value 0 is copied to an unassigned one, when a gate without a selector refers to advice
  cells, and when a gate with a selector refers to a public input; it panics when a gate fails in the last usable row and multiplies a cell of
  the next row by zero, and on a region that enables a selector and assigns nothing. It fills public inputs
  with zeros, so a test cannot notice inputs that are too short. Only this last one touches the brainfuck circuit (C88): for the
  program `,` on the input 0 it accepts public inputs without the 0, with which no proof can be made (`C88_short`).
* **F32 (C90)** The proofs are not zero-knowledge. In `plonk/prover.rs` lines 367-375 the random values for the unused rows of the advice columns are
  commented out (the last one is set to 1), the random polynomial of the vanishing argument is the constant 1, KZG commitments
  ignore the blinding factor, and the binary seeds its generator with the constant 42. For this project nothing is lost as program and input are
  published; a circuit with a secret witness on this fork is open to guessing.
* **F33 (C91)** V1 looks for constants only in the rows above the end of the last region: a circuit whose one row asks for two constants and has one
  column for them is refused with `NotEnoughColumnsForConstants` whatever `k` is, although the single-pass planner lays it out (the brainfuck circuit uses the latter).
* **F34 (C92)** `AccumulatorStrategy::process` scales with `Scalar::random(get_rng())`, and `get_rng` (lib.rs lines 60-64) makes a generator with seed 42 in
  each call. The factor is the same constant in every run, so anyone can make two proofs of false statements that cancel (`forgePair`), for any parameters,
  an honest setup included. (`ParamsKZG::new` and `unsafe_setup` draw their secret from the same generator: parameters made by them have a public secret,
  equal to that factor.) The on-chain verifier uses `SingleStrategy` and is not affected by the batching.
* **F35 (C95)** The compressed encoding of G2 (used when parameters are read in the
  `Processed` format): `Fq2::from_bytes` unwraps both coordinates, so 64 bytes with a
  number not below q make `G2Affine::from_bytes` panic instead of returning nothing
  (`C95_panics`); a point with y = c·u has the encoding of its negative (`C95_same`,
  `C95_not_all`); that a point lies in the group of order p is not checked
  (`C95_subgroup`).
* **F36 (C97)** `AccumulatorStrategy` of the inner product argument scales by
  `from(42)` instead of a random factor: two wrong claims, off by δ and by −42δ,
  cancel (`C97_unsound`). Not used by this project's programs.
* **F37 (C96)** `ParamsIPA::shrink` cuts the generators but leaves `k` and `n`:
  afterwards every proof and every verification panics (`C96_shrink`); `downsize`
  is right (`C96_downsize`). With k = 0 verification always panics, in
  `compute_s` (`C96_one`).
* **F38 (C99)** SHPLONK looks up the value of a commitment at a point with `find`
  (the first query wins), the inner product argument overwrites it (the last one
  wins). A second, contradictory query is not checked. The verifier of a circuit
  reads one evaluation for each column and rotation, so a circuit that queries a
  column at two rotations which are equal modulo 2^k (n/2 and −n/2, say) takes an
  unchecked number from the proof. The brainfuck circuit has only small rotations
  and is not affected (the soundness theorems have this as a hypothesis and
  discharge it for the circuit).
* **F39 (C102)** `RunningSumConfig` compares the number of windows with a word size
  given by its caller and not with the field. With 86 windows of 3 bits over the
  scalar field of bn256, zero is decomposed into zeros or into the windows of the
  modulus, and both meet the constraints (`C102_ambiguous`). With fewer windows
  than the word needs keys are made, and each attempt to prove panics
  (`C102_runs`). The lookup range check does compare with the field (`C103_sound`
  needs no hypothesis).
* **F40 (C108)** The constraints of incomplete addition are products with
  `x_p − x_q`: for two equal points they are 0 = 0 and any two numbers are accepted
  as the sum, also ones that are not on the curve (`C108_equal`, `C108_not_sound`).
  The check in `assign_region` is made on the values of an honest prover only, and
  `NonIdentityPoint::add_incomplete` is public. Its documentation says that
  "exceptional cases return an Error" and concludes that the result is not the
  identity; a dishonest prover is not held to that.
* **F41 (C109)** `double_and_add` writes the coordinates of the base into the rows of
  the loops with `assign_advice` and not with `copy_advice`; the gates say only that
  they are the same in all rows. A dishonest prover may put another point there,
  and, as 251 of the 255 bits are worked off there, choose the result: with the
  numbers in `Lemmas/EccMulForged` the product of 1 and (−1, 2) is (−1, −2), and
  all constraints hold (`C109_not_sound`). For other results the same computation
  gives a point (one linear equation modulo the order). With the base copied into
  one row of the loops the product is right (`C109_sound_partial`).
* **F42 (C111)** `from_bytes` of a point of secp256k1 takes x from the first 32 of the
  33 bytes and the sign from the top bit of the last; the other seven bits of the last
  byte are cleared in a copy and never looked at. Every point is thus read from 128
  different strings (`C111_ignored`). Where encodings serve as identifiers (a nullifier, an entry
  in a list of keys used) a second one for the same point is free.
* **F43 (C115)** `EccInstructions::mul_fixed` takes the scalar by reference, and the chip
  delays its witnessing: a scalar given to two multiplications is witnessed twice, and
  nothing ties the two (`C115_not_tied`). The way that would tie them, to use the scalar
  that the first multiplication returns, ends in a `todo!` (`C115_again`). A statement
  like "both commitments have the same randomness" can thus not be made with
  full-width scalars unless the author ties the windows, which the API does not expose.
  The doc comment says that witnessing may be delayed "until its first use", not that
  each use is a first one. The gadget `FixedPoint::mul` takes the scalar by value, so
  that there only the panic remains.
* **F44 (C116)** `compute_lagrange_coeffs` and `find_zs_and_us` panic for one window (the
  digit 0 then stands for the identity, whose coordinates are unwrapped) and for none
  (the subtraction underflows); the return type `Option` of the second suggests that
  failures are returned (`C116_one_panics`).
* **F45 (C117)** `test_zs_and_us` does not compare lengths: tables with too few windows, or
  with none, pass, for every point (`C117_empty`, `C117_first_part`). A user who relies on
  it to vet constants has to check the lengths apart from it.
* **F46 (C119)** A message without pieces is accepted by `Message::from_pieces`. The first row is then
  also the last one, where the second coordinate returned is an ordinary cell: the gate
  for the first row ties the y coordinate of Q to λ₁, λ₂ and x_p there, all of which the prover
  chooses, and nothing ties the cell returned, which may contain any number (`C119_empty`).
  An honest prover writes zeros next to it and fails unless y² = 2x − 2 (`C119_honest`).
* **F47 (C119)** `message.rs` asserts `< MAX_WORDS` under the comment "cannot contain more than
  `MAX_WORDS`"; `Message::from_bitstring` asserts `<= MAX_WORDS` before it calls it, and the hash
  outside of circuits takes 253 words. The longest message can thus be hashed outside
  but panics in a circuit (`C119_longest`). A piece of no words passes `MessagePiece::new` and
  panics when hashed (`C119_wordless`).
* **F48 (C121)** As its comments say, `hash_layer` takes any 255 bits that stand for a child. A child
  below 2^255 − p has two encodings, and a prover who uses the second gets another
  hash for the same children (`C121_ambiguous`). An application that relies on the root being a
  function of the leaf and the path has to know this; it still holds that a root is the hash of
  bits which stand for the children (C120).
