{
 "claims": [
  {
   "property": "C01",
   "status": "proved",
   "theorems": [
    "Verif.Props.C01_compile_keeps_commands",
    "Verif.Props.C01_compile_ignores_comments",
    "Verif.Props.C01_compile_injective"
   ],
   "note": "All byte strings, both build modes; length bound 65535 words for the first and third."
  },
  {
   "property": "C02",
   "status": "proved",
   "theorems": [
    "Verif.Props.C02_jump_operands",
    "Verif.Props.C02_every_bracket_matched",
    "Verif.Props.C02_words_unique"
   ],
   "note": "All balanced sources up to 65535 words, both build modes."
  },
  {
   "property": "C03",
   "status": "partial",
   "theorems": [
    "Verif.Props.C03_refuted",
    "Verif.Props.C03_reject_iff_underflow_partial",
    "Verif.Props.C03_reject_iff_underflow_debug_partial"
   ],
   "note": "False of the code: `[` is accepted. Exact rejection condition proved instead."
  },
  {
   "property": "C04",
   "status": "partial",
   "theorems": [
    "Verif.Props.C04_refuted",
    "Verif.Props.C04_compile_correct_partial"
   ],
   "note": "False of the code: 65535 `+` then `[]` is miscompiled silently. Correct up to 65535 words."
  },
  {
   "property": "C05",
   "status": "proved",
   "theorems": [
    "Verif.Props.C05_run_agrees",
    "Verif.Props.C05_run_finishes",
    "Verif.Props.C05_values_small"
   ],
   "note": "Every balanced non-empty program up to 65535 words, every input of cell values, up to 2^62 steps (above, addresses leave 64 bits)."
  },
  {
   "property": "C06",
   "status": "proved",
   "theorems": [
    "Verif.Props.C06_panic_iff"
   ],
   "note": "Same domain as C05; both directions."
  },
  {
   "property": "C07",
   "status": "proved",
   "theorems": [
    "Verif.Props.C07_cells_and_pointer"
   ],
   "note": "Any code list, not only compiled code; below 2^62 iterations."
  },
  {
   "property": "C08",
   "status": "proved",
   "theorems": [
    "Verif.Props.C08_trace_shape"
   ],
   "note": "Same domain as C05."
  },
  {
   "property": "C09",
   "status": "proved",
   "theorems": [
    "Verif.Props.C09_instruction_table"
   ],
   "note": "Same domain as C05."
  },
  {
   "property": "C10",
   "status": "proved",
   "theorems": [
    "Verif.Props.C10_memory_table"
   ],
   "note": "Same domain as C05."
  },
  {
   "property": "C11",
   "status": "proved",
   "theorems": [
    "Verif.Props.C11_inverse_column"
   ],
   "note": "Any code and input."
  },
  {
   "property": "C12",
   "status": "proved",
   "theorems": [
    "Verif.Props.C12_unread_input",
    "Verif.Props.C12_reads_prefix"
   ],
   "note": "First theorem for any code and input."
  },
  {
   "property": "C17",
   "status": "proved",
   "theorems": [
    "Verif.Props.C17_selectors"
   ],
   "note": "Any grid, any row."
  },
  {
   "property": "C18",
   "status": "proved",
   "theorems": [
    "Verif.Props.C18_step"
   ],
   "note": "Any assignment satisfying gates and lookups."
  },
  {
   "property": "C13",
   "status": "proved",
   "theorems": [
    "Verif.Props.C13_gates"
   ],
   "note": "All finished runs of 8-bit cells, any challenges, any accepted public inputs, any contents of unusable rows."
  },
  {
   "property": "C14",
   "status": "proved",
   "theorems": [
    "Verif.Props.C14_satisfied"
   ],
   "note": "All finished runs that read their whole input (shorter than 2^64)."
  },
  {
   "property": "C15",
   "status": "partial",
   "theorems": [
    "Verif.Props.C15_false",
    "Verif.Props.C15_accepts_iff_input_read_partial"
   ],
   "note": "False of the code: `+` with input `a`. Exact: accepted iff the whole input was read."
  },
  {
   "property": "C16",
   "status": "partial",
   "theorems": [
    "Verif.Props.C16_false",
    "Verif.Props.C16_room_partial",
    "Verif.Props.C16_choice_partial"
   ],
   "note": "False of the code: 255 `+`. Exact room criterion proved instead."
  },
  {
   "property": "C19",
   "status": "partial",
   "theorems": [
    "Verif.Props.C19_false",
    "Verif.Props.C19_false_input",
    "Verif.Props.C19_sound_partial",
    "Verif.Props.C19_unforgeable_partial",
    "Verif.Props.C19_repair_keeps_honest_partial"
   ],
   "note": "False of the code: forged memory for `+><.`, and `,.` on another input. Proved with the missing constraints (Spec.Repaired) added; honest assignments meet them."
  },
  {
   "property": "C20",
   "status": "partial",
   "theorems": [
    "Verif.Props.C20_false",
    "Verif.Props.C20_forge",
    "Verif.Props.C20_fetch_partial"
   ],
   "note": "False of the code: `-.` passes for `+.`; in general any program whose run has the same table lengths. Proved with the missing constraints on the instruction table."
  },
  {
   "property": "C21",
   "status": "partial",
   "theorems": [
    "Verif.Props.C21_false",
    "Verif.Props.C21_forge",
    "Verif.Props.C21_memory_partial",
    "Verif.Props.C21_instruction_partial"
   ],
   "note": "False of the code: products may start from 0, then memory and instruction tables are arbitrary. Proved: from equal nonzero starts the tables list the processor rows."
  },
  {
   "property": "C22",
   "status": "partial",
   "theorems": [
    "Verif.Props.C22_false",
    "Verif.Props.C22_halts_partial"
   ],
   "note": "False of the code: an endless loop passes for a finished run. Proved with the missing constraints."
  },
  {
   "property": "C23",
   "status": "partial",
   "theorems": [
    "Verif.Props.C23_false",
    "Verif.Props.C23_forge",
    "Verif.Props.C23_output_partial",
    "Verif.Props.C23_unique_partial"
   ],
   "note": "False of the code: any output list of the right length is accepted. Proved with the missing constraints."
  },
  {
   "property": "C24",
   "status": "proved",
   "theorems": [
    "Verif.Props.C24_columns",
    "Verif.Props.C24_iff",
    "Verif.Props.C24_error",
    "Verif.Props.C24_error_fixed_weights"
   ],
   "note": "Tables shorter than P for the equivalence. C24_columns ties the columns of accepted assignments to the products."
  },
  {
   "property": "C25",
   "status": "proved",
   "theorems": [
    "Verif.Props.C25_columns",
    "Verif.Props.C25_iff",
    "Verif.Props.C25_error",
    "Verif.Props.C25_leading_zeros"
   ],
   "note": "Columns shorter than P for the equivalences."
  },
  {
   "property": "C26",
   "status": "proved",
   "theorems": [
    "Verif.Props.C26_same_columns",
    "Verif.Props.C26_verifier_rebuilds",
    "Verif.Props.C26_capacity"
   ],
   "note": "All compiled programs and inputs that fit the verifier's buffers; the exact capacity is the third theorem."
  },
  {
   "property": "C27",
   "status": "partial",
   "theorems": [
    "Verif.Props.C27_false",
    "Verif.Props.C27_panics_iff_partial",
    "Verif.Props.C27_no_panic_partial"
   ],
   "note": "False of the code: some witnesses make the verifier panic instead of exiting with a code. Exact condition for the decoding part."
  },
  {
   "property": "C28",
   "status": "proved",
   "theorems": [
    "Verif.Props.C28_exit_zero",
    "Verif.Props.C28_exit_bad_proof",
    "Verif.Props.C28_exit_bad_data",
    "Verif.Props.C28_exit_codes"
   ],
   "note": "For any verifying-key reader and any proof checker (both are parameters)."
  },
  {
   "property": "C29",
   "status": "proved",
   "theorems": [
    "Verif.Props.C29_params_roundtrip",
    "Verif.Props.C29_params_canonical"
   ],
   "note": "Down to the 64-bit limbs of the coordinates."
  },
  {
   "property": "C30",
   "status": "partial",
   "theorems": [
    "Verif.Props.C30_false",
    "Verif.Props.C30_shape_iff_lengths_partial",
    "Verif.Props.C30_program_iff_partial"
   ],
   "note": "False of the code: `,.`-style programs whose trace length depends on the input. Exact: same shape iff same table lengths."
  },
  {
   "property": "C39",
   "status": "partial",
   "theorems": [
    "Verif.Props.C39_false",
    "Verif.Props.C39_false_params",
    "Verif.Props.C39_coordinates_partial"
   ],
   "note": "False of the code: RawBytes reading never checks the curve equation. Coordinates below the modulus are checked."
  },
  {
   "property": "C31",
   "status": "proved",
   "theorems": [
    "Verif.Props.C31_no_overlap",
    "Verif.Props.C31_earliest",
    "Verif.Props.C31_writes_kept",
    "Verif.Props.C31_circuit"
   ],
   "note": "For every sequence of regions with any operations; applied to the circuit: every region starts at row 0."
  },
  {
   "property": "C32",
   "status": "proved",
   "theorems": [
    "Verif.Props.C32_selectors",
    "Verif.Props.C32_no_panic",
    "Verif.Props.C32_same_meaning",
    "Verif.Props.C32_degree",
    "Verif.Props.C32_circuit"
   ],
   "note": "For every selector table and every constraint system built without panics, over Fr with degree below the modulus."
  },
  {
   "property": "C37",
   "status": "proved",
   "theorems": [
    "Verif.Props.C37_recreate",
    "Verif.Props.C37_circuit"
   ],
   "note": "For every constraint system for which compression succeeds; it always does for this circuit."
  },
  {
   "property": "C40",
   "status": "partial",
   "theorems": [
    "Verif.Props.C40_domain_false",
    "Verif.Props.C40_domain_partial",
    "Verif.Props.C40_circuit_partial",
    "Verif.Props.C40_rejected_partial"
   ],
   "note": "False of the code without overflow checks. Exact classification of all 32-bit k for the degree of the circuit."
  },
  {
   "property": "C41",
   "status": "proved",
   "theorems": [
    "Verif.Props.C41_transform",
    "Verif.Props.C41_interpolates",
    "Verif.Props.C41_extended",
    "Verif.Props.C41_quotient"
   ],
   "note": "Over any module over the field."
  },
  {
   "property": "C42",
   "status": "partial",
   "theorems": [
    "Verif.Props.C42_evaluate",
    "Verif.Props.C42_division",
    "Verif.Props.C42_interpolation_partial",
    "Verif.Props.C42_interpolation_false",
    "Verif.Props.C42_basis_partial",
    "Verif.Props.C42_basis_false"
   ],
   "note": "Evaluation and division are proved in full. Interpolation and basis values are wrong at repeated points and at points of the domain."
  },
  {
   "property": "C43",
   "status": "proved",
   "theorems": [
    "Verif.Props.C43_multiexp",
    "Verif.Props.C43_setup",
    "Verif.Props.C43_commit",
    "Verif.Props.C43_downsize",
    "Verif.Props.C43_secret"
   ],
   "note": "The curve is any module over the field."
  },
  {
   "property": "C34",
   "status": "proved",
   "theorems": [
    "Verif.Props.C34_round_trip",
    "Verif.Props.C34_exist"
   ],
   "note": "Keys of the brainfuck circuit with any table of enabled selectors, any commitments; followed by any bytes. transcript_repr (a hash) is not modelled."
  },
  {
   "property": "C38",
   "status": "partial",
   "theorems": [
    "Verif.Props.C38_false",
    "Verif.Props.C38_partial"
   ],
   "note": "False of the code: a key whose selector expressions are the constant 0 fits in the witness, is read, and makes every gate hold for every assignment. Partial: selectors are all that a key can change."
  },
  {
   "property": "C44",
   "status": "proved",
   "theorems": [
    "Verif.Props.C44_key_fits"
   ],
   "note": "At most 2963 bytes."
  },
  {
   "property": "C33",
   "status": "proved",
   "theorems": [
    "Verif.Props.C33_cycles",
    "Verif.Props.C33_rejects",
    "Verif.Props.C33_values",
    "Verif.Props.C33_circuit"
   ],
   "note": "Any sequence of copies on any number of columns and rows."
  },
  {
   "property": "C36",
   "status": "proved",
   "theorems": [
    "Verif.Props.C36_complete",
    "Verif.Props.C36_rejects",
    "Verif.Props.C36_force"
   ],
   "note": "The columns after compression by theta, without the running product."
  },
  {
   "property": "C35",
   "status": "proved",
   "theorems": [
    "Verif.Props.C35_gates",
    "Verif.Props.C35_lookup",
    "Verif.Props.C35_circuit",
    "Verif.Props.C35_selector"
   ],
   "note": "Any gates and lookups without selectors; the intermediates left by earlier rows do not matter."
  },
  {
   "property": "C45",
   "status": "proved",
   "theorems": [
    "Verif.Props.C45_labels",
    "Verif.Props.C45_keygen"
   ],
   "note": "Commitments are ideal: the key holds the polynomials. Hashing of the key is not modelled."
  },
  {
   "property": "C46",
   "status": "proved",
   "theorems": [
    "Verif.Props.C46_rounds",
    "Verif.Props.C46_circuit"
   ],
   "note": "Ideal commitments: opening claims are about polynomials the prover is bound to. Challenges are drawn after the messages they depend on; the hash is not modelled."
  },
  {
   "property": "C47",
   "status": "proved",
   "theorems": [
    "Verif.Props.C47_complete",
    "Verif.Props.C47_circuit"
   ],
   "note": "Commitments are the polynomials. Challenges are arguments; the transcript is not modelled. The exceptions are challenges that make a factor of a running product zero or that lie in the domain."
  },
  {
   "property": "C48",
   "status": "proved",
   "theorems": [
    "Verif.Props.C48_complete"
   ],
   "note": "The pairing is any bilinear map; equality of commitments is by reference, as in the code."
  },
  {
   "property": "C49",
   "status": "proved",
   "theorems": [
    "Verif.Props.C49_sound"
   ],
   "note": "The prover is bound to polynomials (algebraic group model) and the secret is drawn at random; the code fixes it (C50). Queries of the same commitment at the same point must not contradict each other (only the first is looked at)."
  },
  {
   "property": "C50",
   "status": "partial",
   "theorems": [
    "Verif.Props.C50_forgery",
    "Verif.Props.C49_sound"
   ],
   "note": "False: C50_forgery computes an accepted opening for any claims from the secret, which is a constant in the source. For a random secret C49_sound holds."
  },
  {
   "property": "C51",
   "status": "proved",
   "theorems": [
    "Verif.Props.C51_accepted",
    "Verif.Props.exists_accepted"
   ],
   "note": "Hash function, group and point encoding are arbitrary (encoding decodable, 32 bytes). exists_accepted: under some hash function the honest proof is accepted, so the theorem is not vacuous."
  },
  {
   "property": "C52",
   "status": "proved",
   "theorems": [
    "Verif.Props.C52_ends"
   ],
   "note": "The two exceptions are part of the statement."
  },
  {
   "property": "C53",
   "status": "partial",
   "theorems": [
    "Verif.Props.C53_false",
    "Verif.Props.C53_prefix_partial"
   ],
   "note": "False: any bytes may follow an accepted proof. What holds: the verifier looks at exactly the first proofSize bytes, a number that depends on the key only, and a shorter proof is rejected. Whether those bytes can be changed otherwise depends on hardness assumptions."
  },
  {
   "property": "C54",
   "status": "proved",
   "theorems": [
    "Verif.Props.C54_circuit",
    "Verif.Props.C54_rounds",
    "Verif.Props.C54_bytes"
   ],
   "note": "Provers are bound to polynomials (algebraic group model), challenges are drawn at random (no Fiat-Shamir), and the secret is drawn at random; the code fixes it to 42 (C50, C56). C54_bytes: the verifier accepts bytes exactly if the messages read from them pass."
  },
  {
   "property": "C55",
   "status": "partial",
   "theorems": [
    "Verif.Props.C55_false",
    "Verif.Props.C55_panics_partial",
    "Verif.Props.C55_circuit_partial"
   ],
   "note": "False: panics when the evaluation point is in the domain. What holds: the verifier panics only then or when the last challenge is a rotation of the evaluation point. The parameters must be of the size of the key."
  },
  {
   "property": "C56",
   "status": "partial",
   "theorems": [
    "Verif.Props.C56_circuit_false",
    "Verif.Props.C56_forgery",
    "Verif.Props.C54_circuit"
   ],
   "note": "False: C56_circuit_false computes an accepted proof for any key of the circuit, program, input and hash function (but for challenges that make the verifier panic). What holds, for a secret drawn at random and a prover bound to polynomials, is C54_circuit."
  },
  {
   "property": "C57",
   "status": "proved",
   "theorems": [
    "Verif.Props.C57_prime",
    "Verif.Props.C57_stored",
    "Verif.Props.C57_operations",
    "Verif.Props.C57_pow",
    "Verif.Props.C57_from",
    "Verif.Props.C57_repr",
    "Verif.Props.C57_observe",
    "Verif.Props.C57_invert_fq",
    "Verif.Props.C57_invert_fr",
    "Verif.Props.C57_sqrt",
    "Verif.Props.C57_legendre",
    "Verif.Props.C57_models",
    "Verif.Props.C57_field"
   ],
   "note": "Square roots for the base field, the only ones the verifier takes. pow is a provided method of an external crate, taken to be square-and-multiply. C57_models: the models that compute in ZMod P agree with the limbs."
  },
  {
   "property": "C58",
   "status": "proved",
   "theorems": [
    "Verif.Props.C58_jacobian",
    "Verif.Props.C58_mixed",
    "Verif.Props.C58_sum",
    "Verif.Props.C58_mul",
    "Verif.Props.C58_convert",
    "Verif.Props.C58_batch",
    "Verif.Props.C58_eq",
    "Verif.Props.C58_onCurve"
   ],
   "note": "The group is the one of Mathlib (WeierstrassCurve.Affine.Point). With C57_field the field may be the stored forms with the operations on limbs."
  },
  {
   "property": "C59",
   "status": "proved",
   "theorems": [
    "Verif.Props.C59_order",
    "Verif.Props.C59_scalars",
    "Verif.Props.C59_generator",
    "Verif.Props.C59_no_two_torsion"
   ],
   "note": ""
  },
  {
   "property": "C60",
   "status": "proved",
   "theorems": [
    "Verif.Props.C60_roundtrip",
    "Verif.Props.C60_canonical",
    "Verif.Props.C60_format",
    "Verif.Props.C60_coordinates"
   ],
   "note": "On limbs. C60_coordinates is about the function common_point calls; the check for infinity there never fires (F21)."
  },
  {
   "property": "C61",
   "status": "proved",
   "theorems": [
    "Verif.Props.C61_accepted",
    "Verif.Props.C61_made"
   ],
   "note": "Key reader, proof verification and program put together on bytes. The pairing is any bilinear map, the hash any function; Encodings holds for the encodings of G1 (g1_encodings) and is asked of those of the second group."
  },
  {
   "property": "C62",
   "status": "partial",
   "theorems": [
    "Verif.Props.C62_false",
    "Verif.Props.C62_exit_partial"
   ],
   "note": "False: C62_false. What holds is that exit code 0 means that the messages in the proof pass the equations; for provers bound to polynomials C54 goes on from there."
  },
  {
   "property": "C63",
   "status": "partial",
   "theorems": [
    "Verif.Props.C63_exits_partial",
    "Verif.Props.C63_false"
   ],
   "note": "False: C63_false. C63_exits_partial names the two cases in which it can panic."
  },
  {
   "property": "C64",
   "status": "proved",
   "theorems": [
    "Verif.Props.C64_challenges",
    "Verif.Props.C64_injective",
    "Verif.Props.C64_bound",
    "Verif.Props.C64_bound_last",
    "Verif.Props.g1_coordsTell"
   ],
   "note": "The hash is any function; nothing is assumed about it. The last commitment of the proof, read after the last challenge, is not hashed, and bytes after it are ignored (C53)."
  },
  {
   "property": "C65",
   "status": "proved",
   "theorems": [
    "Verif.Props.C65_exists",
    "Verif.Props.C65_injective",
    "Verif.Props.C65_fq2",
    "Verif.Props.C65_fq6",
    "Verif.Props.C65_fq12"
   ],
   "note": "Over residues modulo q; C57 says that the limb operations are these."
  },
  {
   "property": "C66",
   "status": "proved",
   "theorems": [
    "Verif.Props.C66_frobenius",
    "Verif.Props.C66_conjugate"
   ],
   "note": "With the tables of the code, decoded from Montgomery form."
  },
  {
   "property": "C67",
   "status": "proved",
   "theorems": [
    "Verif.Props.C67_cyclotomic",
    "Verif.Props.C67_other"
   ],
   "note": ""
  },
  {
   "property": "C68",
   "status": "proved",
   "theorems": [
    "Verif.Props.C68_final",
    "Verif.Props.C68_order",
    "Verif.Props.C68_mul"
   ],
   "note": ""
  },
  {
   "property": "C69",
   "status": "partial",
   "theorems": [
    "Verif.Props.C69_refuted",
    "Verif.Props.C69_partial"
   ],
   "note": "False: C69_refuted. Nothing in the verifier calls it for Fq6 or Fq12. For Fq2 it is right (C65_fq2)."
  },
  {
   "property": "C70",
   "status": "proved",
   "theorems": [
    "Verif.Props.C70_curve",
    "Verif.Props.C70_torsion",
    "Verif.Props.C70_cofactor"
   ],
   "note": ""
  },
  {
   "property": "C71",
   "status": "proved",
   "theorems": [
    "Verif.Props.C71_pairing"
   ],
   "note": ""
  },
  {
   "property": "C72",
   "status": "proved",
   "theorems": [
    "Verif.Props.C72_left",
    "Verif.Props.C72_right",
    "Verif.Props.C72_scalar"
   ],
   "note": "Weil reciprocity for the lines of the Miller loop is proved, not assumed."
  },
  {
   "property": "C73",
   "status": "proved",
   "theorems": [
    "Verif.Props.C73_degenerate",
    "Verif.Props.C73_injective"
   ],
   "note": "The kernel evaluates the pairing of the generators."
  },
  {
   "property": "C74",
   "status": "proved",
   "theorems": [
    "Verif.Props.C74_joint",
    "Verif.Props.C74_check",
    "Verif.Props.C74_verifier"
   ],
   "note": "C74_verifier connects the check of the model of the verifier (any bilinear map) with the code."
  },
  {
   "property": "C75",
   "status": "proved",
   "theorems": [
    "Verif.Props.C75_group",
    "Verif.Props.C75_scalar"
   ],
   "note": ""
  },
  {
   "property": "C76",
   "status": "proved",
   "theorems": [
    "Verif.Props.C76_made",
    "Verif.Props.C76_accepted",
    "Verif.Props.C76_forged"
   ],
   "note": "The hash is any function, as is the scalar the key is hashed to. demo_deployed is a case."
  },
  {
   "property": "C77",
   "status": "partial",
   "theorems": [
    "Verif.Props.C77_refuted",
    "Verif.Props.C77_partial"
   ],
   "note": "False for Gt: C77_refuted. Right for the two curves."
  },
  {
   "property": "C78",
   "status": "partial",
   "theorems": [
    "Verif.Props.C78_false",
    "Verif.Props.C78_folds",
    "Verif.Props.C78_refused",
    "Verif.Props.C78_partial"
   ],
   "note": "False: C78_false, two programs of 513 words that print different things. C78_folds says for all public inputs what the verifier looks at. C78_partial: columns that fit are told apart."
  },
  {
   "property": "C79",
   "status": "partial",
   "theorems": [
    "Verif.Props.C79_refuted",
    "Verif.Props.C79_partial",
    "Verif.Props.C79_same_partial",
    "Verif.Props.C79_registers"
   ],
   "note": "False: C79_refuted, an element in both fields whose square, product with itself and encoding are wrong. C79_partial: addition, subtraction, doubling and negation are right for all elements; the others when no adc r, 0 overflows."
  },
  {
   "property": "C80",
   "status": "proved",
   "theorems": [
    "Verif.Props.C80_enough",
    "Verif.Props.C80_each_needed",
    "Verif.Props.C80_honest",
    "Verif.Props.C80_faithful_prints"
   ],
   "note": "About the circuit with added checks; that the circuit does not make them is C19 to C23. Needed means: for all challenges but n in P, an accepted assignment passes the other nineteen and shows an output the program does not print."
  },
  {
   "property": "C81",
   "status": "proved",
   "theorems": [
    "Verif.Props.C81_permutation",
    "Verif.Props.C81_parameters"
   ],
   "note": "Over any field with any constants and matrix; that Grain makes such is C85."
  },
  {
   "property": "C82",
   "status": "partial",
   "theorems": [
    "Verif.Props.C82_inverse_partial",
    "Verif.Props.C82_returns",
    "Verif.Props.C82_singular",
    "Verif.Props.C82_not_all",
    "Verif.Props.C82_cauchy",
    "Verif.Props.C82_new_panics"
   ],
   "note": "False: C82_not_all (invert panics on an invertible matrix), C82_new_panics (an MDS Cauchy matrix without parameters). C82_inverse_partial and C82_returns: what is returned is the inverse, and exactly when. C82_cauchy: Cauchy matrices of distinct elements are MDS and inverted."
  },
  {
   "property": "C83",
   "status": "proved",
   "theorems": [
    "Verif.Props.C83_split",
    "Verif.Props.C83_hash",
    "Verif.Props.C83_padding"
   ],
   "note": "For any permutation."
  },
  {
   "property": "C84",
   "status": "partial",
   "theorems": [
    "Verif.Props.C84_not_separated",
    "Verif.Props.C84_challenge_partial",
    "Verif.Props.C84_same_shape"
   ],
   "note": "False: C84_not_separated, for all elements. C84_challenge_partial says what a challenge depends on; C84_same_shape: histories whose messages have the same lengths are told apart."
  },
  {
   "property": "C85",
   "status": "partial",
   "theorems": [
    "Verif.Props.C85_bits",
    "Verif.Props.C85_ready",
    "Verif.Props.C85_constant_partial",
    "Verif.Props.C85_generate",
    "Verif.Props.C85_matrix"
   ],
   "note": "Missing: that the loop that rejects large numbers ends. C85_generate: exactly what is returned, if it ends. That the loop for a bit ends is C85_bits."
  },
  {
   "property": "C86",
   "status": "partial",
   "theorems": [
    "Verif.Props.C86_not_all",
    "Verif.Props.C86_start_partial"
   ],
   "note": "False: C86_not_all. C86_start_partial: exactly which parameters share a start."
  },
  {
   "property": "C87",
   "status": "partial",
   "theorems": [
    "Verif.Props.C87_accepts_wrong",
    "Verif.Props.C87_sound_partial",
    "Verif.Props.C87_verdict_partial",
    "Verif.Props.C87_run",
    "Verif.Props.C87_par",
    "Verif.Props.C87_report_cells",
    "Verif.Props.C87_report_gates_partial",
    "Verif.Props.C87_report_lookups_partial",
    "Verif.Props.C87_report_copies",
    "Verif.Props.C87_false_alarm_copy",
    "Verif.Props.C87_false_alarm_gate",
    "Verif.Props.C87_false_alarm_instance",
    "Verif.Props.C87_panic_poison",
    "Verif.Props.C87_panic_region"
   ],
   "note": "False: C87_accepts_wrong (a lookup into rows beyond the usable ones is accepted), C87_false_alarm_* (satisfied, but refused), C87_panic_* (panics instead of a report). C87_sound_partial and C87_verdict_partial: acceptance means satisfied, and conversely, under the stated conventions on the circuit. C87_report_*: what the failures name."
  },
  {
   "property": "C88",
   "status": "proved",
   "theorems": [
    "Verif.Props.C88_run",
    "Verif.Props.C88_verdict",
    "Verif.Props.C88_honest",
    "Verif.Props.C88_empty",
    "Verif.Props.C88_missing_zeros",
    "Verif.Props.C88_short"
   ],
   "note": "For all matrices, inputs and sizes for which a proof can be synthesized; C88_empty says what happens on empty matrices. C88_missing_zeros and C88_short: zeros missing at the end of the public inputs go unnoticed by the mock prover, although no proof can be made."
  },
  {
   "property": "C89",
   "status": "proved",
   "theorems": [
    "Verif.Props.C89_evaluate",
    "Verif.Props.C89_formula",
    "Verif.Props.C89_equal",
    "Verif.Props.C89_batch"
   ],
   "note": "Over any field. Batch inversion is that of the crate ff, written down from its source, which is not in the repository."
  },
  {
   "property": "C90",
   "status": "partial",
   "theorems": [
    "Verif.Props.C90_first_bytes",
    "Verif.Props.C90_reveals",
    "Verif.Props.C90_not_hiding",
    "Verif.Props.C90_demo",
    "Verif.Props.C90_program_input_partial"
   ],
   "note": "False: C90_not_hiding, for the brainfuck circuit and every run that prints, and C90_demo without further hypotheses. C90_first_bytes and C90_reveals: any circuit. C90_program_input_partial: what is true, nothing but program, input and random values enters an honest proof."
  },
  {
   "property": "C91",
   "status": "proved",
   "theorems": [
    "Verif.Props.C91_v1",
    "Verif.Props.C91_first_fit",
    "Verif.Props.C91_columns_order",
    "Verif.Props.C91_simple",
    "Verif.Props.C91_v1_refuses"
   ],
   "note": "For all circuits without tables (their columns are their own). C91_v1_refuses: V1 refuses circuits for which there is room below the last region."
  },
  {
   "property": "C92",
   "status": "partial",
   "theorems": [
    "Verif.Props.C92_complete",
    "Verif.Props.C92_random_partial",
    "Verif.Props.C92_false",
    "Verif.Props.C92_circuit_false"
   ],
   "note": "False: C92_false (any circuit), C92_circuit_false (brainfuck circuit). C92_complete: batches of good proofs are accepted. C92_random_partial: a bad batch is accepted for fewer factors than it has proofs, so a factor drawn after the proofs would do."
  },
  {
   "property": "C93",
   "status": "proved",
   "theorems": [
    "Verif.Props.C93_complete",
    "Verif.Props.C93_sound",
    "Verif.Props.C93_total"
   ],
   "note": "For all claims, challenges and parameters. As in C48 the prover answers with polynomials (the algebraic group model), and the pairing is any non-degenerate bilinear map."
  },
  {
   "property": "C94",
   "status": "proved",
   "theorems": [
    "Verif.Props.C94_tonelli",
    "Verif.Props.C94_scalars",
    "Verif.Props.C94_extension",
    "Verif.Props.C94_legendre"
   ],
   "note": "C94_tonelli: any finite field. pow and pow_vartime of the crates pasta_curves and ff are written down from their documentation: square and multiply over all bits."
  },
  {
   "property": "C95",
   "status": "partial",
   "theorems": [
    "Verif.Props.C95_roundtrip_partial",
    "Verif.Props.C95_not_all",
    "Verif.Props.C95_same",
    "Verif.Props.C95_panics",
    "Verif.Props.C95_accepts",
    "Verif.Props.C95_canonical",
    "Verif.Props.C95_subgroup"
   ],
   "note": "False: C95_not_all (a point decoded as its negative), C95_panics (exactly when decoding panics), C95_subgroup (a point outside the group is accepted). C95_roundtrip_partial, C95_same: exactly which points come back and which encodings collide. Open: whether a point of the group itself has y with first coordinate zero."
  },
  {
   "property": "C96",
   "status": "proved",
   "theorems": [
    "Verif.Props.C96_complete",
    "Verif.Props.C96_zero",
    "Verif.Props.C96_sound",
    "Verif.Props.C96_binding",
    "Verif.Props.C96_total",
    "Verif.Props.C96_useG",
    "Verif.Props.C96_sums",
    "Verif.Props.C96_one",
    "Verif.Props.C96_downsize",
    "Verif.Props.C96_shrink",
    "Verif.Props.C96_curve"
   ],
   "note": "For all parameters with k at least 1. C96_sound: parameters without a relation, in any group; C96_binding: any group, so a curve too, for provers that know the coefficients of their points. C96_one and C96_shrink: with k = 0, or after shrink, verification panics."
  },
  {
   "property": "C97",
   "status": "partial",
   "theorems": [
    "Verif.Props.C97_complete",
    "Verif.Props.C97_one_partial",
    "Verif.Props.C97_unsound"
   ],
   "note": "False: C97_unsound, two wrong openings are accepted together, for any parameters and any two openings. C97_complete: right openings are accepted together. C97_one_partial: a batch of one."
  },
  {
   "property": "C98",
   "status": "proved",
   "theorems": [
    "Verif.Props.C98_complete",
    "Verif.Props.C98_sound",
    "Verif.Props.C98_binding",
    "Verif.Props.C98_answers"
   ],
   "note": "For all parameters with k at least 1. C98_complete: polynomials of n coefficients, at most n points. C98_sound: parameters without a relation, in any group; C98_binding: any group, for provers that know the coefficients of their points. Claims that contradict each other: C99."
  },
  {
   "property": "C99",
   "status": "partial",
   "theorems": [
    "Verif.Props.C99_shplonk",
    "Verif.Props.C99_ipa",
    "Verif.Props.C99_shplonk_accepts",
    "Verif.Props.C99_ipa_accepts",
    "Verif.Props.C99_gwc_partial"
   ],
   "note": "False: C99_shplonk and C99_ipa (the value of a repeated claim is not looked at), C99_shplonk_accepts and C99_ipa_accepts (any true claims with any contradiction are accepted). C99_gwc_partial: with one quotient per point it holds, but for few challenges."
  },
  {
   "property": "C100",
   "status": "proved",
   "theorems": [
    "Verif.Props.C100_range_check",
    "Verif.Props.C100_bool",
    "Verif.Props.C100_bitrange",
    "Verif.Props.C100_decompose",
    "Verif.Props.C100_lebs"
   ],
   "note": "For all fields and expressions (range check with a nonzero range, conditions, selection), for all prime or other moduli below 2^256 (bit ranges), for all lists of up to 64 bits."
  },
  {
   "property": "C101",
   "status": "proved",
   "theorems": [
    "Verif.Props.C101_sound",
    "Verif.Props.C101_complete",
    "Verif.Props.C101_keys"
   ],
   "note": "For all fields, cells, regions and whatever a prover writes."
  },
  {
   "property": "C102",
   "status": "partial",
   "theorems": [
    "Verif.Props.C102_sound_partial",
    "Verif.Props.C102_open",
    "Verif.Props.C102_runs",
    "Verif.Props.C102_complete",
    "Verif.Props.C102_ambiguous",
    "Verif.Props.C102_keys"
   ],
   "note": "False: C102_ambiguous (with more windows than the field has bits, which are taken, the windows of zero are not determined) and C102_runs (a wrong number of windows passes key generation and panics when proving). C102_sound_partial: the windows are those of the number if 2^(k n) is at most the modulus."
  },
  {
   "property": "C103",
   "status": "proved",
   "theorems": [
    "Verif.Props.C103_table",
    "Verif.Props.C103_sound",
    "Verif.Props.C103_open",
    "Verif.Props.C103_complete",
    "Verif.Props.C103_short_sound",
    "Verif.Props.C103_witness_short_sound",
    "Verif.Props.C103_short_complete"
   ],
   "note": "For all prime fields. Short checks need 2^(2k - bits) at most the modulus, which the code does not check and every table that can be built meets for fields of 255 bits. Honest provers: modulus below 2^256, words of at most 64 bits."
  },
  {
   "property": "C104",
   "status": "proved",
   "theorems": [
    "Verif.Props.C104_configure",
    "Verif.Props.C104_permute",
    "Verif.Props.C104_sound",
    "Verif.Props.C104_agrees",
    "Verif.Props.C104_sbox",
    "Verif.Props.C104_complete",
    "Verif.Props.C104_keys",
    "Verif.Props.C104_runs",
    "Verif.Props.C104_inverse",
    "Verif.Props.C104_pallas",
    "Verif.Props.C104_vesta"
   ],
   "note": "For all fields, widths, numbers of rounds, constants and contents of the cells, given that the S-box is x^5 (the chip takes it to be, C104_sbox) and that the second matrix is the inverse of the first (C104_inverse for generated ones, C104_pallas and C104_vesta for the fixed ones)."
  },
  {
   "property": "C105",
   "status": "proved",
   "theorems": [
    "Verif.Props.C105_hash",
    "Verif.Props.C105_empty",
    "Verif.Props.C105_sound",
    "Verif.Props.C105_complete",
    "Verif.Props.C105_keys",
    "Verif.Props.C105_runs",
    "Verif.Props.C105_pallas"
   ],
   "note": "For all fields, widths from 2, message lengths and contents of the cells; hypotheses as for C104, met by the Pasta parameters (C105_pallas)."
  },
  {
   "property": "C106",
   "status": "proved",
   "theorems": [
    "Verif.Props.C106_pallas",
    "Verif.Props.C106_point",
    "Verif.Props.C106_non_identity",
    "Verif.Props.C106_complete",
    "Verif.Props.C106_non_identity_complete",
    "Verif.Props.C106_keys"
   ],
   "note": "For all curves y^2 = x^3 + b over all fields on which the representation of the identity is no point (Pallas: C106_pallas)."
  },
  {
   "property": "C107",
   "status": "proved",
   "theorems": [
    "Verif.Props.C107_sound",
    "Verif.Props.C107_complete",
    "Verif.Props.C107_keys"
   ],
   "note": "For all such curves, all points and all contents of the cells. C106_pallas gives the hypothesis for Pallas."
  },
  {
   "property": "C108",
   "status": "partial",
   "theorems": [
    "Verif.Props.C108_sound_partial",
    "Verif.Props.C108_opposite",
    "Verif.Props.C108_equal",
    "Verif.Props.C108_not_sound",
    "Verif.Props.C108_complete",
    "Verif.Props.C108_error",
    "Verif.Props.C108_keys"
   ],
   "note": "False: C108_not_sound (for two equal points any numbers are accepted as the sum, C108_equal). C108_sound_partial: right if the points are neither equal nor opposite nor the identity."
  },
  {
   "property": "C109",
   "status": "partial",
   "theorems": [
    "Verif.Props.C109_order",
    "Verif.Props.C109_not_sound",
    "Verif.Props.C109_sound_partial",
    "Verif.Props.C109_complete",
    "Verif.Props.C109_runs",
    "Verif.Props.C109_keys",
    "Verif.Props.C109_identity"
   ],
   "note": "False: C109_not_sound (a prover may use another point within the loops; the witness makes 1 times (-1, 2) equal to (-1, -2)). C109_sound_partial: for all scalars, points and contents of the cells, right if the first row of the loops contains the base. C109_complete: for every number and every point other than the identity the chip succeeds and the honest prover meets all constraints and gets the product. C109_runs, C109_keys: keys do not depend on values. C109_identity: an error for the identity. C109_order: Pallas has as many points as the code says."
  },
  {
   "property": "C110",
   "status": "proved",
   "theorems": [
    "Verif.Props.C110_prime",
    "Verif.Props.C110_stored",
    "Verif.Props.C110_operations",
    "Verif.Props.C110_pow",
    "Verif.Props.C110_from",
    "Verif.Props.C110_repr",
    "Verif.Props.C110_observe",
    "Verif.Props.C110_invert_base",
    "Verif.Props.C110_invert_scalar",
    "Verif.Props.C110_sqrt_base",
    "Verif.Props.C110_sqrt_scalar",
    "Verif.Props.C110_constants",
    "Verif.Props.C110_group"
   ],
   "note": "For both fields of secp256k1 and all inputs. The square root in the scalar field is proved on residues, the rest on limbs."
  },
  {
   "property": "C111",
   "status": "partial",
   "theorems": [
    "Verif.Props.C111_roundtrip",
    "Verif.Props.C111_sound",
    "Verif.Props.C111_injective",
    "Verif.Props.C111_ignored",
    "Verif.Props.C111_not_unique",
    "Verif.Props.C111_unique_partial",
    "Verif.Props.C111_io"
   ],
   "note": "False: C111_not_unique (the low seven bits of the last byte are ignored, C111_ignored). C111_roundtrip, C111_sound, C111_injective hold in full; C111_unique_partial: the encoding is unique apart from these bits."
  },
  {
   "property": "C112",
   "status": "proved",
   "theorems": [
    "Verif.Props.C112_sound",
    "Verif.Props.C112_complete",
    "Verif.Props.C112_runs",
    "Verif.Props.C112_keys"
   ],
   "note": "For all tables that fit the point (TableOf); fullBase_table is one, of the point (-1, 2). The number with the digits may be q or more; the multiple is the same."
  },
  {
   "property": "C113",
   "status": "proved",
   "theorems": [
    "Verif.Props.C113_sound",
    "Verif.Props.C113_complete",
    "Verif.Props.C113_runs",
    "Verif.Props.C113_keys"
   ],
   "note": "For all tables that fit the point; shortBase_table is one."
  },
  {
   "property": "C114",
   "status": "proved",
   "theorems": [
    "Verif.Props.C114_sound",
    "Verif.Props.C114_complete",
    "Verif.Props.C114_runs",
    "Verif.Props.C114_keys"
   ],
   "note": "For all tables that fit the point; fullBase_table is one."
  },
  {
   "property": "C115",
   "status": "partial",
   "theorems": [
    "Verif.Props.C115_not_tied",
    "Verif.Props.C115_again",
    "Verif.Props.C115_partial"
   ],
   "note": "False: C115_not_tied (cells accepted with 5 times and 6 times the point for one scalar) and C115_again (the scalar returned panics when used again, for all inputs). C115_partial: right if the windows are the same."
  },
  {
   "property": "C116",
   "status": "proved",
   "theorems": [
    "Verif.Props.C116_coefficients",
    "Verif.Props.C116_search",
    "Verif.Props.C116_table",
    "Verif.Props.C116_one_panics"
   ],
   "note": "The square root of pasta_curves is a parameter with the hypothesis that it is right. One window or none panics (C116_one_panics). That every point has fitting numbers is not claimed; for (-1, 2) they are found."
  },
  {
   "property": "C117",
   "status": "partial",
   "theorems": [
    "Verif.Props.C117_not_checked",
    "Verif.Props.C117_empty",
    "Verif.Props.C117_first_part",
    "Verif.Props.C117_partial"
   ],
   "note": "False: C117_not_checked (empty lists pass, C117_empty; first parts pass, C117_first_part). C117_partial: with lists of the right lengths, passing is the same as being a table."
  },
  {
   "property": "C118",
   "status": "proved",
   "theorems": [
    "Verif.Props.C118_sound",
    "Verif.Props.C118_complete",
    "Verif.Props.C118_runs",
    "Verif.Props.C118_keys",
    "Verif.Props.C118_generators"
   ],
   "note": "For all tables of 1024 points; gen_table is the code's. If a step is exceptional (Q = S_m up to sign, say) there is no hash and nothing is claimed of the result."
  },
  {
   "property": "C119",
   "status": "partial",
   "theorems": [
    "Verif.Props.C119_empty",
    "Verif.Props.C119_honest",
    "Verif.Props.C119_longest",
    "Verif.Props.C119_wordless",
    "Verif.Props.C119_partial"
   ],
   "note": "False: C119_empty (the empty message, any second coordinate), C119_honest (an honest prover fails on it), C119_longest (253 words panic), C119_wordless (a piece without words panics). C119_partial: with a piece and fewer than 253 words the message is taken and the result determined, if the words have a hash."
  },
  {
   "property": "C120",
   "status": "proved",
   "theorems": [
    "Verif.Props.C120_layer_sound",
    "Verif.Props.C120_path_sound",
    "Verif.Props.C120_layer_complete",
    "Verif.Props.C120_runs"
   ],
   "note": "Completeness is for one layer. Encodings of children need not be canonical (C121). If the words have no hash nothing is claimed of the result."
  },
  {
   "property": "C121",
   "status": "partial",
   "theorems": [
    "Verif.Props.C121_ambiguous",
    "Verif.Props.C121_partial"
   ],
   "note": "False: C121_ambiguous (children 5 and 7 with two hashes, cell by cell; documented in the code). C121_partial: if neither child is below 2^255 - p, the cell contains the hash of the canonical encodings, if there is one."
  },
  {
   "property": "C122",
   "status": "proved",
   "theorems": [
    "Verif.Props.C122_sound",
    "Verif.Props.C122_short_sound",
    "Verif.Props.C122_complete",
    "Verif.Props.C122_runs",
    "Verif.Props.C122_used"
   ],
   "note": "The scalar is what the prover puts into the windows, a number below 2^255; it is not tied to anything else (C115). Selectors of both chips are assumed to differ for completeness. If the words have no hash nothing is claimed of the result."
  },
  {
   "property": "C123",
   "status": "proved",
   "theorems": [
    "Verif.Props.C123_hiding",
    "Verif.Props.C123_any"
   ],
   "note": "Of the point, for a scalar chosen uniformly; nothing is claimed about how scalars are drawn."
  }
 ]
}