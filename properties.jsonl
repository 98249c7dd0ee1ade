{"id": "C01", "title": "Compilation keeps every command, in order, and ignores comments", "statement": "For every source text that compiles, deleting the operand word after each bracket from the compiled program gives back exactly the eight-command characters of the source in order; every other byte has no effect on the compiled program.", "quantifier": "for all byte strings for which compile_to_u16 returns and whose compiled length is at most 65535", "why_tests_cant": "The property ranges over all source texts; tests compile a handful of programs.", "anchors": ["ckb_bf_vm/src/code.rs:compile_to_u16", "ckb_bf_vm/src/code.rs:compile"]}
{"id": "C02", "title": "Jump operands point just past the matching bracket", "statement": "In a compiled balanced program the word after each '[' is the position just past the operand of the matching ']', and the word after each ']' is the position just past the operand of the matching '['.", "quantifier": "for all bracket-balanced byte strings whose compiled length is at most 65535, and every bracket in them", "why_tests_cant": "Nesting depth and program length are unbounded; a test fixes both.", "anchors": ["ckb_bf_vm/src/code.rs:compile_to_u16"]}
{"id": "C03", "title": "Unbalanced sources are rejected", "statement": "compile_to_u16 fails on a source exactly when its brackets are unbalanced.", "quantifier": "for all byte strings", "why_tests_cant": "Needs the exact set of rejected inputs, an infinite set. (False of the code: an unclosed '[' is accepted.)", "anchors": ["ckb_bf_vm/src/code.rs:compile_to_u16"]}
{"id": "C04", "title": "Compilation is correct for programs of any length", "statement": "Every balanced source either is refused or compiles to a program whose jump operands are correct, whatever its length.", "quantifier": "for all bracket-balanced byte strings, with and without overflow checks", "why_tests_cant": "The failure appears only past 65535 words, far from any test program. (False of the code.)", "anchors": ["ckb_bf_vm/src/code.rs:compile_to_u16"]}
{"id": "C05", "title": "A finished run agrees with Brainfuck", "statement": "If the interpreter finishes on a compiled balanced program, its output, its remaining input and its memory are those of the textbook Brainfuck machine (8-bit wrapping cells, tape unbounded to the right) on the same source and input; and if the textbook machine halts, the interpreter finishes.", "quantifier": "for all nonempty balanced sources with compiled length at most 65535, all byte inputs, all run lengths below 2^62 steps", "why_tests_cant": "Ranges over all programs, inputs and run lengths.", "anchors": ["ckb_bf_vm/src/interpreter.rs:Interpreter::run", "ckb_bf_vm/src/code.rs:compile"]}
{"id": "C06", "title": "The interpreter panics exactly on a Brainfuck runtime error", "statement": "On a compiled balanced nonempty program the interpreter panics exactly when the textbook machine moves left of cell 0 or reads past the end of its input.", "quantifier": "for all nonempty balanced sources, inputs and run lengths below 2^62 steps", "why_tests_cant": "Absence of every other panic (index, unreachable!, unwrap) has to hold on all paths.", "anchors": ["ckb_bf_vm/src/interpreter.rs:Interpreter::run"]}
{"id": "C07", "title": "Memory cells stay bytes and the pointer stays inside memory", "statement": "At every point of a run every memory cell is an integer in 0..2^bits and the memory pointer addresses an allocated cell, provided each input value is below 2^bits.", "quantifier": "for all compiled programs, inputs, and every prefix of the run below 2^62 steps", "why_tests_cant": "An invariant over every reachable state.", "anchors": ["ckb_bf_vm/src/interpreter.rs:Interpreter::run", "ckb_bf_vm/src/interpreter.rs:Interpreter::set_bits"]}
{"id": "C08", "title": "Trace length, clock and final row", "statement": "After a finished run of s steps the processor table has s+1 rows, row i has cycle i, the first row has ip=mp=mv=0, and the last row has ip equal to the program length with current and next instruction 0.", "quantifier": "for all compiled balanced nonempty programs and inputs on which the run finishes (below 2^62 steps)", "why_tests_cant": "Holds for traces of any length.", "anchors": ["ckb_bf_vm/src/interpreter.rs:Interpreter::run", "ckb_bf_vm/src/matrix.rs:Matrix"]}
{"id": "C09", "title": "Instruction table content", "statement": "After a finished run the instruction table is sorted by instruction pointer and is a rearrangement of one row per program word plus one row per processor row; rows with equal instruction pointer are equal.", "quantifier": "for all compiled balanced nonempty programs and inputs on which the run finishes", "why_tests_cant": "Quantifies over all traces.", "anchors": ["ckb_bf_vm/src/interpreter.rs:Interpreter::run", "ckb_bf_vm/src/matrix.rs:InstructionMatrixRow"]}
{"id": "C10", "title": "Memory table content", "statement": "After a finished run the memory table is a rearrangement of the (cycle, pointer, value) parts of the processor rows, sorted by pointer and, within a pointer, by cycle; the first row of each pointer holds 0 and a value only changes between consecutive cycles.", "quantifier": "for all compiled balanced nonempty programs and inputs on which the run finishes", "why_tests_cant": "Quantifies over all traces.", "anchors": ["ckb_bf_vm/src/interpreter.rs:Interpreter::run", "ckb_bf_vm/src/matrix.rs:MemoryMatrixRow"]}
{"id": "C11", "title": "Inverse column", "statement": "In every processor row the inverse column is 0 if the value column is 0 and is the field inverse of the value otherwise.", "quantifier": "for all programs and inputs, every row of the trace", "why_tests_cant": "Every row of every trace.", "anchors": ["ckb_bf_vm/src/interpreter.rs:Interpreter::run"]}
{"id": "C12", "title": "Unread input does not matter", "statement": "A run reads a prefix of its input; extending the input beyond that prefix changes neither the trace tables nor the output.", "quantifier": "for all compiled programs, all inputs, all extensions of the input", "why_tests_cant": "Two-run property over all inputs.", "anchors": ["ckb_bf_vm/src/interpreter.rs:Interpreter::run"]}
{"id": "C13", "title": "Honest traces satisfy every gate", "statement": "The tables of a finished run, loaded by load_table, make every gate polynomial of the circuit vanish on every row, for every choice of challenges and whatever is in the unusable rows.", "quantifier": "for all compiled balanced nonempty programs, all byte inputs with a finished run, all challenge values, all row counts that fit", "why_tests_cant": "Gate satisfaction for all traces and all verifier challenges.", "anchors": ["ckb_bf_base/src/main_config.rs:MainConfig::load_table", "ckb_bf_base/src/processor_table.rs:ProcessorTable", "ckb_bf_base/src/memory_table.rs:MemoryTable", "ckb_bf_base/src/instruction_table.rs:InstructionTable", "ckb_bf_base/src/input_table.rs:InputTable", "ckb_bf_base/src/output_table.rs:OutputTable", "ckb_bf_base/src/program_table.rs:ProgramTable"]}
{"id": "C14", "title": "Honest traces satisfy the whole circuit", "statement": "When in addition the run consumed its whole input, the lookup and every copy constraint hold as well, against the public inputs [len]++code and [len]++input: the circuit accepts.", "quantifier": "for all compiled balanced nonempty programs, all byte inputs completely read by a finished run, all challenge values, all row counts that fit", "why_tests_cant": "Completeness for all programs; tests run a few.", "anchors": ["ckb_bf_base/src/main_config.rs:MainConfig::load_table", "ckb_bf_base/src/main_config.rs:MainConfig::configure", "ckb_bf_prover/src/main.rs:prove_and_verify", "ckb_bf_base/src/range_table.rs:RangeTable::load_table"]}
{"id": "C15", "title": "A finished run can be proved even if it leaves input unread", "statement": "For every program and input with a finished run the circuit accepts the honest trace against the public inputs the prover binary uses.", "quantifier": "for all compiled balanced nonempty programs and inputs with a finished run", "why_tests_cant": "Needs the exact set of accepted runs. (False of the code: fails exactly when input is left unread.)", "anchors": ["ckb_bf_base/src/input_table.rs:InputTable::load_table", "ckb_bf_prover/src/main.rs:prove_and_verify", "ckb_bf_base/src/main_config.rs:MainConfig::load_table"]}
{"id": "C16", "title": "The prover's choice of k leaves enough rows", "statement": "The k chosen by the prover binary gives enough usable rows for every trace.", "quantifier": "for all traces (all instruction table lengths)", "why_tests_cant": "Only lengths just below a power of two fail. (False of the code: exact failing set characterised.)", "anchors": ["ckb_bf_prover/src/main.rs:main", "halo2_proofs/src/plonk/keygen.rs:keygen_vk", "halo2_proofs/src/plonk/circuit.rs:ConstraintSystem::blinding_factors"]}
{"id": "C17", "title": "Opcode (de)selectors", "statement": "For a current instruction among the eight opcodes, the deselector of an opcode is nonzero exactly when it is the current instruction, and the selector of an opcode is zero exactly when it is the current instruction.", "quantifier": "for all opcode pairs, over the scalar field (the selector also for all field values)", "why_tests_cant": "Needs non-vanishing in the field of the product of differences.", "anchors": ["ckb_bf_base/src/processor_table.rs:create_deselector", "ckb_bf_base/src/processor_table.rs:create_selector"]}
{"id": "C18", "title": "Processor gates force a Brainfuck step", "statement": "If the processor gates, consistency gates and the range lookup hold on two consecutive rows and the current instruction is an opcode, then the next clock, instruction pointer and memory pointer are the ones prescribed by the opcode, and the next memory value is as prescribed for +, -, ., [ and ].", "quantifier": "for all pairs of rows of field elements", "why_tests_cant": "Quantifies over all adversarial field values (about 2^254 each).", "anchors": ["ckb_bf_base/src/processor_table.rs:ProcessorTableConfig::configure"]}
{"id": "C19", "title": "Accepted traces are genuine executions", "statement": "Any assignment accepted by the circuit for public (program, input) is the trace of an execution of that program on that input.", "quantifier": "for all assignments of the advice columns, all programs and inputs", "why_tests_cant": "Soundness quantifies over all adversarial witnesses. (False of the code: the memory table does not force clock order; a forged trace of '+><.' is accepted.)", "anchors": ["ckb_bf_base/src/memory_table.rs:MemoryTable::configure", "ckb_bf_base/src/processor_table.rs:ProcessorTable::configure", "ckb_bf_base/src/main_config.rs:MainConfig::load_table"]}
{"id": "C20", "title": "The executed program is the public program", "statement": "Any assignment accepted by the circuit executes the program given as public input.", "quantifier": "for all assignments of the advice columns, all pairs of programs", "why_tests_cant": "Quantifies over all adversarial witnesses. (False of the code: the final running-sum cell of the instruction table is unconstrained.)", "anchors": ["ckb_bf_base/src/instruction_table.rs:InstructionTable::load_table", "ckb_bf_base/src/program_table.rs:ProgramTable::load_table", "ckb_bf_base/src/main_config.rs:MainConfig::load_table"]}
{"id": "C21", "title": "The permutation arguments start from a fixed nonzero value", "statement": "In every accepted assignment the running products start from the configured constants and the running sums from 0.", "quantifier": "for all assignments of the advice columns", "why_tests_cant": "Adversarial witnesses. (False of the code: initial cells are plain advice; 0 makes the permutation argument vacuous.)", "anchors": ["ckb_bf_base/src/memory_table.rs:MemoryTable::load_table", "ckb_bf_base/src/processor_table.rs:ProcessorTable::load_table", "ckb_bf_base/src/instruction_table.rs:InstructionTable::load_table"]}
{"id": "C22", "title": "Accepted traces end in a halted state", "statement": "In every accepted assignment the last processor row has its instruction pointer at the program length.", "quantifier": "for all assignments of the advice columns", "why_tests_cant": "Adversarial witnesses. (False of the code: no gate constrains the last row; an infinite loop can be proved.)", "anchors": ["ckb_bf_base/src/processor_table.rs:ProcessorTable::configure", "ckb_bf_base/src/instruction_table.rs:InstructionTable::configure"]}
{"id": "C23", "title": "The output is determined by program and input", "statement": "Two accepted assignments for the same circuit shape and the same public inputs carry the same output table.", "quantifier": "for all pairs of accepted assignments", "why_tests_cant": "A two-witness property. (False of the code.)", "anchors": ["ckb_bf_base/src/output_table.rs:OutputTable::load_table", "ckb_bf_base/src/main_config.rs:MainConfig::load_table"]}
{"id": "C24", "title": "Product argument", "statement": "The running products of two tables agree for all challenges (from the same nonzero start) exactly when the tables are rearrangements of each other; and for tables that are not, the number of bad alpha is at most the table length for any linear compression under which the tables still differ.", "quantifier": "for all pairs of lists of triples of field elements, all challenges", "why_tests_cant": "Statement about all tables and all challenges.", "anchors": ["ckb_bf_base/src/processor_table.rs:ProcessorTable::configure_second_phase", "ckb_bf_base/src/memory_table.rs:MemoryTable::configure_second_phase", "ckb_bf_base/src/instruction_table.rs:InstructionTable::configure_second_phase"]}
{"id": "C25", "title": "Running-sum argument", "statement": "The running sums of two equally long columns agree for all challenges exactly when the columns are equal; unequal columns agree for fewer challenges than their length; for columns of different length agreement for all challenges means equality up to leading zeros.", "quantifier": "for all pairs of lists of field elements, all challenges", "why_tests_cant": "Statement about all columns and all challenges.", "anchors": ["ckb_bf_base/src/input_table.rs:InputTable::configure_second_phase", "ckb_bf_base/src/output_table.rs:OutputTable::configure_second_phase", "ckb_bf_base/src/program_table.rs:ProgramTable::configure_second_phase"]}
{"id": "C26", "title": "Verifier rebuilds the prover's public inputs", "statement": "From the code and input witnesses written by the prover the on-chain verifier rebuilds exactly the public input columns the prover used.", "quantifier": "for all sources compiling to at most 1023 words, all inputs of at most 1023 bytes", "why_tests_cant": "All programs and inputs up to the capacity.", "anchors": ["ckb_bf_prover/src/main.rs:prove_and_verify", "ckb_bf_prover/src/ckb_tx.rs:build_ckb_tx", "ckb_bf_verifier/src/main.rs:program_entry"]}
{"id": "C27", "title": "Verifier never panics on witness data", "statement": "The on-chain verifier returns an exit code (does not panic) whatever the witnesses contain.", "quantifier": "for all witness byte strings", "why_tests_cant": "All byte strings. (False of the code: odd code length, 1024-word programs, 1024-byte inputs and unmatched selector data panic; exact set characterised for the decoding stage.)", "anchors": ["ckb_bf_verifier/src/main.rs:program_entry"]}
{"id": "C28", "title": "Verifier exit codes", "statement": "The verifier exits 0 exactly when all five witnesses load, parameters and key parse, and proof verification of the rebuilt public inputs succeeds; it exits -2 only for a failed proof and -1 for load or parse errors.", "quantifier": "for all witness contents and all behaviours of the parsers and of proof verification", "why_tests_cant": "All combinations of stage outcomes and data.", "anchors": ["ckb_bf_verifier/src/main.rs:program_entry"]}
{"id": "C29", "title": "Verifier parameters survive serialization", "statement": "read_verifier_params applied to the bytes of shrunk parameters returns those parameters.", "quantifier": "for all parameter sets with k<31 whose point encodings are self-inverse", "why_tests_cant": "All parameter values.", "anchors": ["ckb_bf_base/src/utils.rs:read_verifier_params", "halo2_proofs/src/poly/kzg/commitment.rs:ParamsKZG::write_custom", "halo2_proofs/src/poly/kzg/commitment.rs:ParamsKZG::shrink"]}
{"id": "C30", "title": "One verifying key serves every input of a program", "statement": "The circuit shape (selector activations and copy constraints) fixed in the verifying key depends on the program only, not on its input.", "quantifier": "for all programs and pairs of inputs", "why_tests_cant": "Two-run property. (False of the code: the shape depends on the trace length.)", "anchors": ["ckb_bf_base/src/processor_table.rs:ProcessorTable::load_table", "halo2_proofs/src/plonk/keygen.rs:keygen_vk"]}
{"id": "C31", "title": "Regions never overlap", "statement": "The floor planner places regions so that no two regions use the same column in the same row, and table columns start at row 0; in this circuit every region starts at row 0.", "quantifier": "for all lists of region shapes; for all traces", "why_tests_cant": "All region shapes.", "anchors": ["halo2_proofs/src/circuit/floor_planner/single_pass.rs:SingleChipLayouter::assign_region"]}
{"id": "C32", "title": "Selector combination preserves meaning", "statement": "After selector compression each selector's replacement expression is nonzero in a row exactly when the selector was enabled in that row, and no gate exceeds the degree limit it was given.", "quantifier": "for all selector activation tables and degrees, over fields larger than the number of combined selectors", "why_tests_cant": "All activation tables.", "anchors": ["halo2_proofs/src/plonk/circuit/compress_selectors.rs:process", "halo2_proofs/src/plonk/circuit.rs:ConstraintSystem::compress_selectors"]}
{"id": "C33", "title": "Copy constraints become cycles", "statement": "After any sequence of copy calls the permutation's cycles are exactly the classes of the equivalence relation generated by the copied cell pairs; the mapping is a permutation.", "quantifier": "for all sequences of copy calls", "why_tests_cant": "All histories.", "anchors": ["halo2_proofs/src/plonk/permutation/keygen.rs:Assembly::copy"]}
{"id": "C34", "title": "Verifying key survives serialization", "statement": "Reading a written verifying key (raw format) for the same circuit yields the same constraint system, fixed and permutation commitments and selector table.", "quantifier": "for all verifying keys of this circuit", "why_tests_cant": "All keys.", "anchors": ["halo2_proofs/src/plonk.rs:VerifyingKey::write", "halo2_proofs/src/plonk.rs:VerifyingKey::read", "halo2_proofs/src/plonk/circuit.rs:ConstraintSystem::ckb_recreate_side_effect"]}
{"id": "C35", "title": "Compiled gate evaluation equals gate evaluation", "statement": "The prover's expression graph computes, for every row, the same value as direct evaluation of the expression.", "quantifier": "for all expressions, rows, column contents and challenges", "why_tests_cant": "All expressions.", "anchors": ["halo2_proofs/src/plonk/evaluation.rs:GraphEvaluator::add_expression", "halo2_proofs/src/plonk/evaluation.rs:GraphEvaluator::evaluate"]}
{"id": "C36", "title": "Lookup argument", "statement": "The permuted columns built by the prover for a lookup are rearrangements of the input and table columns, with every permuted input equal to the permuted table entry in its row or to its predecessor; construction fails exactly when some input is not in the table. Conversely such columns force every input to be in the table.", "quantifier": "for all input and table columns", "why_tests_cant": "All columns.", "anchors": ["halo2_proofs/src/plonk/lookup/prover.rs:permute_expression_pair"]}
{"id": "C37", "title": "Verifier rebuilds the key's selector columns", "statement": "Reading a verifying key re-creates, from the serialized selector table, the same constraint system (fixed columns, queries, gate and lookup expressions) that key generation obtained by compressing the selectors.", "quantifier": "for all constraint systems, activation tables and degree limits", "why_tests_cant": "All constraint systems and activation tables; the two sides are separate programs.", "anchors": ["halo2_proofs/src/plonk/circuit.rs:ConstraintSystem::ckb_recreate_side_effect", "halo2_proofs/src/plonk/circuit.rs:ConstraintSystem::compress_selectors"]}
{"id": "C38", "title": "The witness cannot change the circuit", "statement": "Whatever verifying key bytes the transaction carries, an accepted proof is a proof about the brainfuck circuit: the gates the verifier checks are those of the circuit.", "quantifier": "for all verifying key byte strings", "why_tests_cant": "All byte strings. (False of the code: the selector expressions come from the witness and can be the constant 0, which switches every gate off.)", "anchors": ["halo2_proofs/src/plonk.rs:VerifyingKey::read", "halo2_proofs/src/plonk/circuit.rs:ConstraintSystem::ckb_recreate_side_effect", "ckb_bf_verifier/src/main.rs:program_entry"]}
{"id": "C39", "title": "Deserialized points lie on the curve", "statement": "Every point read from parameters or from a verifying key in the checked raw format is a point of the curve.", "quantifier": "for all byte strings", "why_tests_cant": "All byte strings. (False of the code: only the range of the coordinates is checked.)", "anchors": ["halo2curves/src/derive/curve.rs:SerdeObject::read_raw", "halo2_proofs/src/helpers.rs:SerdeCurveAffine::read", "ckb_bf_base/src/utils.rs:read_verifier_params"]}
{"id": "C40", "title": "Evaluation domains", "statement": "Building the evaluation domain for constraints of degree j and 2^k rows always ends; it succeeds exactly when the field has a root of unity for the extended domain, and then the domain's roots have the exact orders, the extended domain is the least one that holds the quotient, and the coset avoids the roots of the vanishing polynomial; otherwise it panics.", "quantifier": "for all degrees and all 32-bit k, with and without overflow checks", "why_tests_cant": "All k, which the on-chain verifier reads from the witness. (False of the code without overflow checks: k = 60 never ends; k = 63 and k = 88 are accepted.)", "anchors": ["halo2_proofs/src/poly/domain.rs:EvaluationDomain::new", "halo2_proofs/src/plonk.rs:VerifyingKey::read"]}
{"id": "C41", "title": "Polynomial forms are converted without loss", "statement": "Values in the rows, coefficients and values on the extended coset are converted into each other exactly; dividing by the vanishing polynomial on the coset gives the quotient polynomial.", "quantifier": "for all domains and all polynomials, over the field and over any module (the curve)", "why_tests_cant": "All polynomials and all sizes.", "anchors": ["halo2_proofs/src/arithmetic.rs:best_fft", "halo2_proofs/src/poly/domain.rs:lagrange_to_coeff", "halo2_proofs/src/poly/domain.rs:coeff_to_extended", "halo2_proofs/src/poly/domain.rs:coeff_to_extended_parts", "halo2_proofs/src/poly/domain.rs:extended_to_coeff", "halo2_proofs/src/poly/domain.rs:divide_by_vanishing_poly"]}
{"id": "C42", "title": "Polynomial arithmetic", "statement": "Evaluation, division by X - b and interpolation do what they say; interpolation panics when two abscissae are equal; the Lagrange basis values the verifier uses for the instance are the values of the basis polynomials.", "quantifier": "for all polynomials and points", "why_tests_cant": "All polynomials and points. (False of the code for equal abscissae, where a wrong polynomial is returned, and for basis values at points of the domain, which are all 0.)", "anchors": ["halo2_proofs/src/arithmetic.rs:eval_polynomial", "halo2_proofs/src/arithmetic.rs:kate_division", "halo2_proofs/src/arithmetic.rs:lagrange_interpolate", "halo2_proofs/src/poly/domain.rs:l_i_range"]}
{"id": "C43", "title": "Commitments", "statement": "With parameters made from the secret s, the commitment to a polynomial is its value at s times the generator, whether it is given by coefficients or by values in the rows; cutting parameters down gives the parameters of the smaller size; multi-exponentiation is the sum of the multiples.", "quantifier": "for all secrets, sizes and polynomials", "why_tests_cant": "All polynomials and secrets.", "anchors": ["halo2_proofs/src/poly/kzg/commitment.rs:unsafe_setup_with_s", "halo2_proofs/src/poly/kzg/commitment.rs:commit", "halo2_proofs/src/poly/kzg/commitment.rs:commit_lagrange", "halo2_proofs/src/poly/kzg/commitment.rs:downsize", "halo2_proofs/src/arithmetic.rs:best_multiexp", "halo2_proofs/src/arithmetic.rs:g_to_lagrange"]}
{"id": "C44", "title": "The verifying key fits in the on-chain verifier's buffer", "statement": "For every finished run that fits in the circuit, the verifying key the prover writes is at most 4096 bytes long, so the on-chain verifier can load it.", "quantifier": "for all programs, inputs and circuit sizes for which the prover makes a proof", "why_tests_cant": "The size depends on how selectors are combined, which depends on the lengths of all tables of the run.", "anchors": ["halo2_proofs/src/plonk.rs:VerifyingKey::write", "halo2_proofs/src/plonk/circuit/compress_selectors.rs:process", "ckb_bf_verifier/src/main.rs:program_entry", "ckb_bf_prover/src/main.rs:prove_and_verify"]}
{"id": "C45", "title": "The verifying key describes the circuit", "statement": "Key generation succeeds for every circuit that can be laid out; the polynomials committed to in the key take, in every row, the values of the fixed column and of the selector columns, and the permutation polynomials link exactly the cells tied by copy constraints; no two cells have the same label.", "quantifier": "for all traces and all sizes up to 2^24 rows", "why_tests_cant": "All circuit sizes and all sets of copy constraints; distinct labels are a fact about orders in a 254-bit group.", "anchors": ["halo2_proofs/src/plonk/keygen.rs:keygen_vk", "halo2_proofs/src/plonk/permutation/keygen.rs:Assembly::build_vk", "halo2_proofs/src/plonk/permutation/keygen.rs:Assembly::build_pk"]}
{"id": "C46", "title": "The verifier's equations are sound", "statement": "A prover whose committed columns do not satisfy the circuit can answer the verifier's challenges so that all opening claims are true only with negligible probability: of all choices of the five challenges at most a share of (52*2^k + 80 + 11*N)/|F| helps it, where N bounds the number of coefficients of its polynomials.", "quantifier": "for all constraint systems, all provers, all public inputs that fit in the rows, with ideal polynomial commitments", "why_tests_cant": "Quantifies over all provers and over random challenges.", "anchors": ["halo2_proofs/src/plonk/verifier.rs:verify_proof", "halo2_proofs/src/plonk/permutation/verifier.rs:Evaluated::expressions", "halo2_proofs/src/plonk/lookup/verifier.rs:Evaluated::expressions", "halo2_proofs/src/plonk/vanishing/verifier.rs:PartiallyEvaluated::verify"]}
{"id": "C47", "title": "The honest prover is accepted", "statement": "For a compiled program and an input that the run reads to its end, the prover (key generation, witness columns, permuted lookup columns, running products, quotient polynomial, evaluations) ends with a proof of the shape the verifier reads, and every opening claim the verifier derives from it is true, except for a share of at most 19*2^k/|F| of the challenges.", "quantifier": "for all programs, inputs and sizes up to 2^24 rows for which the tables fit, all user challenges and all blinding values", "why_tests_cant": "Quantifies over all programs, traces and random values; the prover computes the quotient through pieces of a coset of a larger domain, whose agreement with the verifier's equation is an identity of polynomials.", "anchors": ["halo2_proofs/src/plonk/prover.rs:create_proof", "halo2_proofs/src/plonk/permutation/prover.rs:Argument::commit", "halo2_proofs/src/plonk/lookup/prover.rs:commit_permuted", "halo2_proofs/src/plonk/lookup/prover.rs:commit_product", "halo2_proofs/src/plonk/vanishing/prover.rs:Committed::construct", "halo2_proofs/src/plonk/evaluation.rs:Evaluator::evaluate_h", "halo2_proofs/src/plonk/keygen.rs:keygen_pk"]}
{"id": "C48", "title": "Openings of true claims are accepted", "statement": "For polynomials and the values they really have at the queried points, the prover's multi-opening succeeds and the verifier's pairing check accepts it, with parameters made from any secret and for all challenges at which no polynomial is queried.", "quantifier": "for all lists of polynomials, points, secrets and challenges", "why_tests_cant": "All polynomials and sets of points; grouping by points, interpolation, division and the final check have to fit together for every pattern of queries.", "anchors": ["halo2_proofs/src/poly/kzg/multiopen/shplonk/prover.rs:create_proof", "halo2_proofs/src/poly/kzg/multiopen/shplonk/verifier.rs:verify_proof", "halo2_proofs/src/poly/kzg/multiopen/shplonk.rs:construct_intermediate_sets", "halo2_proofs/src/poly/kzg/msm.rs:DualMSM::check"]}
{"id": "C49", "title": "Openings of false claims are rejected", "statement": "If one of the claimed values is wrong, the multi-opening check passes only with negligible probability over its three challenges and the secret of the parameters: the bad values are fewer than the number of claims for the first two challenges, at most the number of points plus N for the third and at most N for the secret, where N bounds the number of coefficients.", "quantifier": "for all provers that answer with polynomials, all false claims, all pairings", "why_tests_cant": "Quantifies over all provers and over random challenges.", "anchors": ["halo2_proofs/src/poly/kzg/multiopen/shplonk/verifier.rs:verify_proof", "halo2_proofs/src/poly/kzg/multiopen/shplonk.rs:construct_intermediate_sets", "halo2_proofs/src/poly/kzg/strategy.rs:SingleStrategy::process"]}
{"id": "C50", "title": "Openings cannot be forged from public data", "statement": "Nobody who only knows public data (the source code, the parameters, the verifying key) can compute an opening that is accepted for false values.", "quantifier": "for all commitments, values and challenges", "why_tests_cant": "A statement about everything an attacker can compute. (False of the code: the secret of the parameters is a constant of the source.)", "anchors": ["ckb_bf_prover/src/main.rs:prove_and_verify", "ckb_bf_base/src/lib.rs:GOD_PRIVATE_KEY", "halo2_proofs/src/poly/kzg/multiopen/shplonk/verifier.rs:verify_proof"]}
{"id": "C51", "title": "Proof bytes written by the prover are accepted by the verifier", "statement": "For a compiled program and an input the run reads completely, with 7 free rows, and parameters from any secret: whenever the prover returns bytes, the verifier, given the verifying key of the same circuit and the public inputs, reads them to the end, draws the same challenges, and accepts, except for challenges in exceptional sets of bounded size.", "quantifier": "for all compiled programs, inputs, sizes k from 9 to 24, secrets, hash functions, random values, curves with a point encoding that can be decoded, and bytes after the proof", "why_tests_cant": "Prover and verifier have to agree on the order of some 140 messages and challenges for every circuit size; tests run a few programs with one hash function.", "anchors": ["halo2_proofs/src/plonk/prover.rs:create_proof", "halo2_proofs/src/plonk/verifier.rs:verify_proof", "halo2_proofs/src/transcript.rs:Blake2bRead, Blake2bWrite", "halo2_proofs/src/poly/kzg/multiopen/shplonk/prover.rs:create_proof", "halo2_proofs/src/poly/kzg/multiopen/shplonk/verifier.rs:verify_proof"]}
{"id": "C52", "title": "The prover ends with a proof of bounded size", "statement": "In the same setting the prover returns at most 4512 bytes, whatever the program, so a proof fits in the 8192 bytes the on-chain verifier reserves for it. The only exceptions are a commitment that happens to be the point at infinity (an error) and an opening challenge that is a rotation of the evaluation point (a panic).", "quantifier": "for all compiled programs, inputs, sizes k from 9 to 24, secrets, hash functions and random values", "why_tests_cant": "The size of a proof depends on how selectors were combined, which depends on the program; the exceptions depend on values of the hash function that tests do not hit.", "anchors": ["halo2_proofs/src/plonk/prover.rs:create_proof", "ckb_bf_verifier/src/main.rs:program_entry", "halo2_proofs/src/poly/kzg/multiopen/shplonk/prover.rs:create_proof"]}
{"id": "C53", "title": "An accepted proof cannot be changed", "statement": "A proof the verifier accepts has exactly one byte string: changing it in any way, also by adding bytes, makes the verifier reject it.", "quantifier": "for all keys, parameters, public inputs, hash functions and byte strings", "why_tests_cant": "All byte strings; a test can only try some changes. (False of the code: the verifier reads a fixed number of bytes, which depends only on the key, and ignores what follows.)", "anchors": ["halo2_proofs/src/plonk/verifier.rs:verify_proof", "halo2_proofs/src/transcript.rs:Blake2bRead", "ckb_bf_verifier/src/main.rs:program_entry"]}
{"id": "C54", "title": "Proofs for assignments the circuit does not accept are rejected", "statement": "Take a prover that commits to polynomials of at most N coefficients and sends any scalars, each chosen after the challenges before it. If its advice columns are not those of an assignment the circuit accepts with the given public inputs, then of all P^9 ways to draw the challenges and the secret of the parameters at most (52 2^k + 13 N + 372) P^8 let the verifier accept.", "quantifier": "for all provers bound to polynomials, traces the key was made for, programs, inputs, sizes k up to 24, pairings", "why_tests_cant": "Quantifies over all provers and over random challenges and secrets.", "anchors": ["halo2_proofs/src/plonk/verifier.rs:verify_proof", "halo2_proofs/src/poly/kzg/multiopen/shplonk/verifier.rs:verify_proof", "halo2_proofs/src/poly/kzg/strategy.rs:SingleStrategy::process"]}
{"id": "C55", "title": "The verifier does not crash, whatever the proof", "statement": "For every proof, also one made to do harm, the verifier accepts or returns an error.", "quantifier": "for all proof bytes, public inputs, hash functions, point encodings, pairings, and all keys generated for the brainfuck circuit", "why_tests_cant": "All byte strings. The failing cases depend on hash values, so random tests do not meet them. (False of the code: it panics when the evaluation point is in the domain, or when the last challenge is a rotation of it; these are the only cases.)", "anchors": ["halo2_proofs/src/plonk/verifier.rs:verify_proof", "halo2_proofs/src/poly/domain.rs:l_i_range", "halo2_proofs/src/poly/kzg/multiopen/shplonk/verifier.rs:verify_proof", "halo2_proofs/src/transcript.rs:Blake2bRead"]}
{"id": "C56", "title": "Nobody can make a proof of a false statement from public data", "statement": "From the public key, the parameters and the source code alone nobody can compute a proof that the verifier accepts for a program and an input with no run behind it.", "quantifier": "for all keys generated for the brainfuck circuit, programs, inputs, hash functions", "why_tests_cant": "About every adversary. (False of the code: the secret of the parameters is the constant 42, and bytes computed with it are accepted for every program and input.)", "anchors": ["ckb_bf_base/src/lib.rs:GOD_PRIVATE_KEY", "halo2_proofs/src/plonk/verifier.rs:verify_proof", "halo2_proofs/src/poly/kzg/multiopen/shplonk/verifier.rs:verify_proof", "ckb_bf_prover/src/main.rs:prove_and_verify"]}
{"id": "C57", "title": "Field arithmetic on limbs is arithmetic modulo the primes", "statement": "For the two fields of bn256: the moduli are prime; every element has exactly one stored form of four words; addition, subtraction, multiplication, squaring, doubling, negation and powers on stored forms give the stored form of the result; equality of limbs is equality of elements; conversions from numbers and bytes reduce modulo the prime; bytes are the canonical representative and only canonical bytes are read back; order, parity and low bits are those of the representative; inverses and square roots are found exactly if they exist.", "quantifier": "for all elements, all words, all byte strings, all exponents", "why_tests_cant": "2^508 pairs of operands; carries and borrows between words go wrong only for rare values.", "anchors": ["halo2curves/src/derive/field.rs", "halo2curves/src/arithmetic.rs:adc, sbb, mac", "halo2curves/src/bn256/fq.rs:Fq", "halo2curves/src/bn256/fr.rs:Fr"]}
{"id": "C58", "title": "Point arithmetic computes the group law", "statement": "For points of a curve y^2 = x^3 + b given in Jacobian or affine coordinates, whichever of the equivalent ones: doubling, addition, mixed addition, negation, subtraction, sums, and multiplication by a scalar give coordinates of the result in the group of the curve, in all special cases (infinity, equal points, opposite points); conversion to affine coordinates, one by one or in a batch, keeps the point; comparison decides equality of points; the on-curve test accepts exactly coordinates of points.", "quantifier": "for all fields of characteristic other than 2 and 3, all b other than 0, all points, all representations, all scalars", "why_tests_cant": "Every pair of points in every representation, including the special cases that random tests do not reach.", "anchors": ["halo2curves/src/derive/curve.rs:new_curve_impl", "halo2curves/src/bn256/curve.rs:G1"]}
{"id": "C59", "title": "The group of bn256 has prime order", "statement": "The curve of the code has exactly as many points as the scalar field has elements, a prime; so multiples of a point by scalars add and multiply like scalars, every point other than infinity generates all points, and no point other than infinity is its own negative.", "quantifier": "for all points and scalars", "why_tests_cant": "About all 2^254 points; the number of points cannot be counted by a test.", "anchors": ["halo2curves/src/bn256/curve.rs:G1", "halo2curves/src/bn256/fr.rs:MODULUS"]}
{"id": "C60", "title": "Every point has exactly one encoding", "statement": "A point of bn256 G1 is encoded in 32 bytes: the first coordinate and the parity of the second. Decoding gives the point back. Any 32 bytes are refused or are the encoding of the point they decode to, which is on the curve. Every point, infinity included, can be written to the transcript.", "quantifier": "for all points, all byte strings", "why_tests_cant": "2^256 byte strings; a second accepted encoding of one point, or an accepted point off the curve, would be found by chance only.", "anchors": ["halo2curves/src/derive/curve.rs:GroupEncoding, coordinates", "halo2curves/src/bn256/fq.rs:sqrt, from_bytes, to_bytes", "halo2_proofs/src/transcript.rs:common_point"]}
{"id": "C61", "title": "The prover's transaction is accepted on chain", "statement": "Compile a program, run it on an input to its end, generate the parameters, the keys and a proof, and put them into a transaction the way the prover does. The on-chain program reads back exactly the parameters and the key that were generated and the same public inputs, and exits with 0.", "quantifier": "for all programs and inputs with room in the circuit and in the buffers, all secrets, hash functions, random values; except for few values of the challenges", "why_tests_cant": "From source text to exit code for every program and input; each test is one program and one draw of the challenges.", "anchors": ["ckb_bf_prover/src/main.rs:prove_and_verify", "ckb_bf_verifier/src/main.rs:program_entry", "ckb_bf_base/src/utils.rs:read_verifier_params", "halo2_proofs/src/plonk.rs:VerifyingKey", "halo2_proofs/src/plonk/prover.rs:create_proof", "halo2_proofs/src/plonk/verifier.rs:verify_proof"]}
{"id": "C62", "title": "Only a run of the program gets a transaction accepted", "statement": "With the parameters and the key of an honest transaction, the on-chain program exits with 0 for a program and an input only if somebody has run that program on that input to its end.", "quantifier": "for all programs, inputs, proofs, hash functions", "why_tests_cant": "About every transaction. (False of the code: the secret of the parameters is public, and there is an accepted proof for every program and input, also if the program never ends.)", "anchors": ["ckb_bf_verifier/src/main.rs:program_entry", "ckb_bf_prover/src/main.rs:prove_and_verify", "ckb_bf_base/src/lib.rs:GOD_PRIVATE_KEY"]}
{"id": "C63", "title": "The on-chain program ends with an exit code", "statement": "With the parameters and the key of an honest transaction and any compiled program, any input and any bytes as proof that fit into their buffers, the on-chain program exits with 0 or with the code for a wrong proof; it does not panic.", "quantifier": "for all programs, inputs, byte strings as proofs, hash functions", "why_tests_cant": "All byte strings. (False of the code when a challenge takes one of few values; these are the only cases.)", "anchors": ["ckb_bf_verifier/src/main.rs:program_entry", "halo2_proofs/src/plonk/verifier.rs:verify_proof"]}
{"id": "C64", "title": "Challenges depend on everything sent before them", "statement": "Each challenge the verifier draws is the hash of one byte string that encodes, in order, the key's digest, both public inputs and every commitment and evaluation read so far; two verifications in which a challenge is drawn from the same bytes agree on the code, the input and all earlier messages of the proof.", "quantifier": "for all keys of the circuit, codes and inputs shorter than the field, byte strings as proofs, hash functions", "why_tests_cant": "A verifier that leaves one message out of its hash accepts all honest proofs; only who knows which one can forge. Injectivity is about all pairs of conversations.", "anchors": ["halo2_proofs/src/transcript.rs:Blake2bRead", "halo2_proofs/src/plonk/verifier.rs:verify_proof", "halo2_proofs/src/poly/kzg/multiopen/shplonk/verifier.rs:verify_proof"]}
{"id": "C65", "title": "The extension fields compute with a field of q^12 elements", "statement": "Each value of Fq2, Fq6 and Fq12 stands for c0+c1*u, c0+c1*v+c2*v^2, c0+c1*w in a field with u^2=-1, v^3=9+u, w^2=v; such a field with q^12 elements exists, different values stand for different elements, and addition, subtraction, negation, multiplication, squaring, doubling, the multiplications by sparse elements and inversion are those of the field; inversion fails for zero only.", "quantifier": "for all elements of Fq2, Fq6, Fq12 and all fields containing u, v, w", "why_tests_cant": "There are q^12 elements; a formula wrong in one term may agree on all sampled sparse or small values, and that every element except zero has an inverse is a statement about non-residues.", "anchors": ["halo2curves/src/bn256/fq2.rs:Fq2", "halo2curves/src/bn256/fq6.rs:Fq6", "halo2curves/src/bn256/fq12.rs:Fq12"]}
{"id": "C66", "title": "Frobenius maps raise to powers of q", "statement": "frobenius_map(i) of Fq2, Fq6 and Fq12 raises to the power q^i, for every i; conjugation raises to the power q in Fq2 and q^6 in Fq12.", "quantifier": "for all elements and all i", "why_tests_cant": "The constants are 48 numbers of 256 bits; a wrong one shows only for powers that tests do not use.", "anchors": ["halo2curves/src/bn256/fq2.rs:Fq2::frobenius_map", "halo2curves/src/bn256/fq6.rs:Fq6::frobenius_map", "halo2curves/src/bn256/fq12.rs:Fq12::frobenius_map"]}
{"id": "C67", "title": "Fast squaring is squaring on the subgroup it is for", "statement": "cyclotomic_square gives the square exactly for zero and for the elements whose order divides q^4-q^2+1.", "quantifier": "for all elements of Fq12", "why_tests_cant": "No test covers the subgroup or its complement.", "anchors": ["halo2curves/src/bn256/fq12.rs:Fq12::cyclotomic_square"]}
{"id": "C68", "title": "The final exponentiation raises to (q^12-1)/r", "statement": "final_exponentiation raises to the power (q^12-1)/r, panics for zero and for nothing else, is multiplicative, and its results have orders dividing r.", "quantifier": "for all elements of Fq12", "why_tests_cant": "The addition chain uses fast squarings and conjugations that are right only on a subgroup; that all intermediate values lie in it is a statement about every input.", "anchors": ["halo2curves/src/bn256/engine.rs:Gt::final_exponentiation"]}
{"id": "C69", "title": "is_zero recognises zero", "statement": "is_zero of Fq2, Fq6 and Fq12 answers yes exactly for zero.", "quantifier": "for all elements", "why_tests_cant": "(False of the code: Fq6::is_zero does not look at the third coordinate, and Fq12::is_zero uses it.)", "anchors": ["halo2curves/src/bn256/fq6.rs:Fq6::is_zero", "halo2curves/src/bn256/fq12.rs:Fq12::is_zero"]}
{"id": "C70", "title": "The second group is the subgroup of order r of the twist", "statement": "The curve constant is 3/(9+u), the curve has r(2q-r) points, the generator has order r. is_torsion_free answers yes exactly for the multiples of the generator, which are the points that r takes to infinity. clear_cofactor multiplies by 2q-r, its results lie in the subgroup, and every point of the subgroup is one of its results.", "quantifier": "for all points of the curve, in any coordinates", "why_tests_cant": "A check of subgroup membership speaks about all of some 2^508 points; tests try the generator.", "anchors": ["halo2curves/src/bn256/curve.rs:G2_B", "halo2curves/src/bn256/curve.rs:G2_GENERATOR_X", "halo2curves/src/bn256/curve.rs:G2::clear_cofactor", "halo2curves/src/bn256/curve.rs:G2::is_torsion_free"]}
{"id": "C71", "title": "The pairing is defined for all points", "statement": "pairing(P, Q) does not panic and gives an element whose r-th power is 1.", "quantifier": "for all P on the first curve and all Q in the second group, infinity included", "why_tests_cant": "The Miller loop divides by nothing but may reach zero, for which the final exponentiation panics; that it never does is a statement about all pairs.", "anchors": ["halo2curves/src/bn256/engine.rs:pairing", "halo2curves/src/bn256/engine.rs:G2Prepared::from", "halo2curves/src/bn256/engine.rs:multi_miller_loop"]}
{"id": "C72", "title": "The pairing is bilinear", "statement": "pairing(P+P', Q) = pairing(P, Q) pairing(P', Q), pairing(P, Q+Q') = pairing(P, Q) pairing(P, Q'), and pairing(P*k, Q*m) = pairing(P, Q)^(km) with the multiplications of the code.", "quantifier": "for all points and all scalars, given by any number of bytes", "why_tests_cant": "Soundness of every proof rests on it; tests check a few random pairs.", "anchors": ["halo2curves/src/bn256/engine.rs:pairing", "halo2curves/src/bn256/engine.rs:multi_miller_loop", "halo2curves/src/bn256/engine.rs:G2Prepared::from"]}
{"id": "C73", "title": "The pairing is not degenerate", "statement": "pairing(P, Q) is 1 exactly if P or Q is infinity; the pairing with one other point tells all points apart.", "quantifier": "for all points", "why_tests_cant": "Tests cannot try all points.", "anchors": ["halo2curves/src/bn256/engine.rs:pairing"]}
{"id": "C74", "title": "The check of the verifier is the opening equation", "statement": "multi_miller_loop followed by final_exponentiation gives the product of the pairings of the pairs. The check of the verifier, with g and s*g of the second group in the parameters, passes for left and right exactly if right = s*left.", "quantifier": "for all lists of pairs; for all points left, right, g other than infinity and all secrets s", "why_tests_cant": "Accepting one other pair would break soundness, rejecting one completeness; tests see a handful.", "anchors": ["halo2curves/src/bn256/engine.rs:multi_miller_loop", "halo2_proofs/src/poly/kzg/msm.rs:DualMSM::check"]}
{"id": "C75", "title": "Operations of the target group", "statement": "For elements whose r-th power is 1, negation is the inverse, doubling the square, multiplication by a scalar the power, and is_identity tells the identity; pairing(P*k, Q) = pairing(P, Q)*k.", "quantifier": "for all such elements and all scalars", "why_tests_cant": "Conjugation is the inverse only in a subgroup; tests use results of pairings of random points.", "anchors": ["halo2curves/src/bn256/engine.rs:Gt"]}
{"id": "C76", "title": "The on-chain program with the curves and the pairing of the code", "statement": "C61 and C62 for the groups, encodings and pairing of the code in place of any: a transaction is made for every run that fits; the on-chain program exits with 0 on it except for few challenges; and with the published secret 42 a proof can be made for every other program and input.", "quantifier": "for all programs, inputs, hash functions and blinding values", "why_tests_cant": "From source text to exit code there are some 2^13 field elements and a pairing; no test can go over the programs.", "anchors": ["ckb_bf_prover/src/main.rs:prove_and_verify", "ckb_bf_verifier/src/main.rs:program_entry", "ckb_bf_base/src/utils.rs:read_verifier_params", "halo2curves/src/bn256/engine.rs:pairing"]}
{"id": "C77", "title": "Default values are identities", "statement": "The value default() of each of the three groups is its identity.", "quantifier": "for the two curves and the target group", "why_tests_cant": "(False of the code for Gt: the derived default is 0, which is not an element of the group.)", "anchors": ["halo2curves/src/bn256/engine.rs:Gt", "halo2curves/src/derive/curve.rs:new_curve_impl"]}
{"id": "C78", "title": "Messages prove their statement about no other public inputs", "statement": "What a verifier accepts for one program and input, it does not accept with the same messages and challenges for another program or input.", "quantifier": "for all pairs of public inputs, keys, messages and challenges, except for few challenges", "why_tests_cant": "(False of the code: the prover refuses public inputs longer than the circuit has rows, the verifier does not, and adds those beyond the last row to the first rows.)", "anchors": ["halo2_proofs/src/plonk/verifier.rs:verify_proof", "halo2_proofs/src/plonk/prover.rs:create_proof", "ckb_bf_verifier/src/main.rs:program_entry"]}
{"id": "C79", "title": "Field arithmetic with the feature asm", "statement": "With the feature asm, addition, subtraction, negation, doubling, multiplication, squaring and to_repr of both fields give what they give without it, that is, the operations of the field.", "quantifier": "for all elements of both fields and all contents of the registers before", "why_tests_cant": "(False of the code: carries are lost in mul, square and montgomery_reduce. A register has to be all ones when a carry comes in, which random tests hardly meet.)", "anchors": ["halo2curves/src/bn256/assembly.rs:mul", "halo2curves/src/bn256/assembly.rs:square", "halo2curves/src/bn256/assembly.rs:montgomery_reduce", "halo2curves/src/bn256/assembly.rs:add", "halo2curves/src/bn256/assembly.rs:sub", "halo2curves/src/bn256/assembly.rs:neg", "halo2curves/src/bn256/assembly.rs:double"]}
{"id": "C80", "title": "What the circuit would have to check besides", "statement": "Twenty checks that the circuit does not make (the running products of a pair start from the same nonzero value, the running sums start from 0 and do not move in the row after the table, the memory table starts with cell 0 and is in the order of the clock, the instruction table ends with the position after the program and its neighbouring words agree, no row but the last is past the end, the numbers of reads and writes are those of the tables) would be enough for an accepted proof to mean that the program halts on the whole public input and prints the output. None of them can be left out: without it a wrong output is accepted though all others pass. An honest prover passes them all.", "quantifier": "for all compiled programs, byte inputs, circuit shapes, first-phase columns and, but for at most n in P of them, all challenges; and for each of the twenty checks", "why_tests_cant": "Tests run the honest prover. That a set of checks is enough is about all assignments of the columns, and that one is needed is about an assignment no honest prover makes.", "anchors": ["ckb_bf_base/src/processor_table.rs:configure", "ckb_bf_base/src/memory_table.rs:configure", "ckb_bf_base/src/instruction_table.rs:configure", "ckb_bf_base/src/program_table.rs:configure", "ckb_bf_base/src/input_table.rs:configure", "ckb_bf_base/src/output_table.rs:configure"]}
{"id": "C81", "title": "The optimised Poseidon permutation is that of the paper", "statement": "If Spec::new returns, then permute never panics and gives, for every state, what the rounds of the paper give one after the other with the original constants and matrix: half of the full rounds, the partial rounds, the other full rounds, each adding constants, raising to the fifth power and multiplying with the matrix. Spec::new returns exactly if the number of full rounds is even and not 0, the constants are as many as the rounds, and no leading minor of the matrix or of the powers of its lower right part up to the number of partial rounds vanishes.", "quantifier": "for all fields, widths, numbers of rounds, constants, matrices and states", "why_tests_cant": "Tests compare the two on random states for a few widths and the constants of one generator; rearranged constants and sparse factors that are wrong for other parameters go unnoticed.", "anchors": ["poseidon/src/permutation.rs:permute", "poseidon/src/spec.rs:calculate_optimized_constants", "poseidon/src/spec.rs:calculate_sparse_matrices", "poseidon/src/spec.rs:factorise"]}
{"id": "C82", "title": "Poseidon matrices are inverted and turned into parameters", "statement": "invert returns the inverse of every invertible matrix and panics on every other. A Cauchy matrix of distinct elements is MDS, is inverted, and gives parameters.", "quantifier": "for all fields, sizes and matrices", "why_tests_cant": "(False of the code: a matrix with 0 in the corner makes invert panic, and there is an MDS Cauchy matrix for which Spec::new panics from two partial rounds on. What is returned is always the inverse.)", "anchors": ["poseidon/src/matrix.rs:invert", "poseidon/src/spec.rs:cauchy", "poseidon/src/spec.rs:factorise"]}
{"id": "C83", "title": "The Poseidon hash does not depend on how its input is split", "statement": "The hash of a sequence of elements is the sponge of the paper on the sequence with 1 and zeros appended, however the sequence was split over calls of update; different sequences are different after padding.", "quantifier": "for all permutations, rates, sequences and ways to split them", "why_tests_cant": "Tests go over a few splits of a few lengths.", "anchors": ["poseidon/src/poseidon.rs:update", "poseidon/src/poseidon.rs:squeeze"]}
{"id": "C84", "title": "Drawing a Poseidon challenge is told apart from absorbing", "statement": "What a hasher draws depends on where challenges were drawn before: different histories of absorbing and drawing give the permutation different inputs.", "quantifier": "for all permutations, rates and histories", "why_tests_cant": "(False of the code: drawing twice after any elements is the same as absorbing their padding and drawing once. Histories of the same shape are told apart.)", "anchors": ["poseidon/src/poseidon.rs:squeeze", "halo2_proofs/src/transcript/poseidon.rs:squeeze_challenge"]}
{"id": "C85", "title": "Poseidon parameters are generated as in the paper", "statement": "Spec::new ends. The bits it uses are those of the generator in the paper, each constant is the first group of 254 bits below the modulus, and if the parameters are made the matrix is MDS.", "quantifier": "for all widths and numbers of rounds, and for all contents of the register that are not all 0", "why_tests_cant": "The generator loops until a bit is 1 and until a number is small enough; a test cannot see that no register makes it loop forever.", "anchors": ["poseidon/src/grain.rs:next", "poseidon/src/grain.rs:next_field_element", "poseidon/src/grain.rs:generate"]}
{"id": "C86", "title": "Different Poseidon parameters have different constants", "statement": "The generator starts from different registers for different widths or numbers of rounds.", "quantifier": "for all widths and numbers of rounds", "why_tests_cant": "(False of the code: only the lowest 10 or 12 bits are used, and nothing checks that there are no more.)", "anchors": ["poseidon/src/grain.rs:generate", "poseidon/src/grain.rs:append_bits"]}
{"id": "C87", "title": "The mock prover accepts exactly the assignments that satisfy the circuit", "statement": "MockProver::verify returns Ok if and only if every gate, lookup and copy constraint holds for the assignment that was synthesised; otherwise it returns the list of what fails, and it does not panic.", "quantifier": "for all constraint systems, sizes, synthesised assignments and public inputs", "why_tests_cant": "(False of the code: a lookup into the rows after the usable ones is accepted although the real prover fails, satisfied assignments are refused in three ways, and two kinds of circuit make the report panic. True for circuits that keep to stated conventions.) A test has one circuit, for which the verdict is known.", "anchors": ["halo2_proofs/src/dev.rs:MockProver::run", "halo2_proofs/src/dev.rs:verify_at_rows", "halo2_proofs/src/dev.rs:verify_par", "halo2_proofs/src/dev/util.rs:load", "halo2_proofs/src/dev/failure.rs"]}
{"id": "C88", "title": "The test of the brainfuck circuit with the mock prover means what it seems to", "statement": "For the brainfuck circuit the mock prover returns Ok exactly if the processor and instruction tables are not empty and the constraints hold for what was assigned; for the trace of a finished run that is so exactly if the run has read the whole input.", "quantifier": "for all programs, inputs, trace matrices and sizes", "why_tests_cant": "The test suite uses the mock prover as its oracle: no test can tell whether the oracle is right.", "anchors": ["halo2_proofs/src/dev.rs:MockProver::run", "halo2_proofs/src/dev.rs:verify_at_rows", "ckb_bf_base/src/main_config.rs:synthesize", "ckb_bf_prover/tests/basic.rs"]}
{"id": "C89", "title": "Fractions given as cell values are what they stand for", "statement": "Values computed as fractions (with 1/0 = 0) stand for the same values computed in the field, equality and zero tests of fractions agree with the field, and inverting all denominators at once gives for each cell what evaluating it alone does, without panicking.", "quantifier": "for all fields, formulas, and columns of fractions with any denominators, zero included", "why_tests_cant": "Tests sample formulas; a denominator that is zero only after some additions, or a shared inversion spoilt by one cell, shows in rare combinations.", "anchors": ["halo2_proofs/src/plonk/assigned.rs:Assigned", "halo2_proofs/src/poly.rs:batch_invert_assigned", "halo2_proofs/src/poly.rs:Polynomial::invert"]}
{"id": "C90", "title": "Proofs do not reveal the values they were made from", "statement": "Whatever can be a proof made from one accepted assignment can also be a proof made from any other accepted assignment for the same key and public inputs.", "quantifier": "for all circuits, keys, assignments, hash functions and random values", "why_tests_cant": "(False of the code: a proof starts with commitments in which nothing is random, so proofs from different assignments differ, and a guess of the secret values can be checked against the proof.) A test sees that proofs verify; that a distribution of proofs is the same for two witnesses is not visible in any of them.", "anchors": ["halo2_proofs/src/plonk/prover.rs:create_proof", "halo2_proofs/src/plonk/vanishing/prover.rs:commit", "halo2_proofs/src/poly/kzg/commitment.rs:commit_lagrange", "ckb_bf_prover/src/main.rs:prove"]}
{"id": "C91", "title": "Both floor planners lay circuits out correctly", "statement": "Both floor planners make exactly the calls that the circuit makes, moved by the start of the region, with no two regions sharing a cell, and put each constant into a fixed cell of its own, copied to the cell that asks for it; they report an error only if there is no room for the constants, and never panic. V1 moreover puts regions, by decreasing advice area, each at the first row at which it fits, whatever the order of its columns.", "quantifier": "for all circuits whose second pass keeps to the columns and rows of the first, all columns for constants, all ways of ordering equal elements", "why_tests_cant": "Tests lay out one or two sets of regions. The search for gaps in several columns at once backtracks and has assertions and an expect; whether they can fail depends on how the gaps of the columns lie to each other. (One part is false of V1: constants are refused although rows remain.)", "anchors": ["halo2_proofs/src/circuit/floor_planner/v1/strategy.rs:slot_in_biggest_advice_first", "halo2_proofs/src/circuit/floor_planner/v1.rs:FloorPlanner for V1", "halo2_proofs/src/circuit/floor_planner/single_pass.rs:assign_region", "halo2_proofs/src/circuit/layouter.rs:RegionShape"]}
{"id": "C92", "title": "A batch of proofs is accepted only if each of them is", "statement": "Verifying several proofs with the accumulating strategy accepts exactly if every one of the proofs would be accepted alone.", "quantifier": "for all lists of proofs, keys, public inputs, parameters, hash functions and pairings", "why_tests_cant": "(False of the code: the factor that keeps the proofs apart is drawn from a generator with a constant seed, so two proofs can be made to cancel, for any statements and without the secret of the parameters.) Tests batch good proofs, or one bad proof among good ones; a set of bad proofs made for each other does not come up.", "anchors": ["halo2_proofs/src/poly/kzg/strategy.rs:AccumulatorStrategy", "halo2_proofs/src/lib.rs:get_rng", "halo2_proofs/src/poly/kzg/msm.rs:DualMSM::scale", "halo2_proofs/src/plonk/verifier.rs:verify_proof"]}
{"id": "C93", "title": "The opening with one quotient per point proves exactly the claimed values", "statement": "Opening any list of claims 'this polynomial has this value at this point' with the GWC scheme: if the claims are true, the prover makes one commitment for each of the points and the verifier accepts, whatever the challenges. If one of the claims is false, the verifier accepts only for few values of the two challenges (fewer than claims, and fewer than points) or of the secret. The verifier's check never panics.", "quantifier": "for all lists of claims (with repeated points and polynomials), all polynomials and parameters, all answers of the prover and all challenges", "why_tests_cant": "Tests open two or three honest polynomials with drawn challenges; exceptional challenges and false claims made to fit are never met.", "anchors": ["halo2_proofs/src/poly/kzg/multiopen/gwc.rs:construct_intermediate_sets", "halo2_proofs/src/poly/kzg/multiopen/gwc/prover.rs:create_proof", "halo2_proofs/src/poly/kzg/multiopen/gwc/verifier.rs:verify_proof"]}
{"id": "C94", "title": "Square roots are found exactly when they exist", "statement": "The square root of a scalar, and of an element of the quadratic extension, is an element whose square is the argument, and is given exactly for squares (zero included). The Legendre symbol in the extension is 1 exactly for the non-zero squares, 0 for zero, -1 otherwise.", "quantifier": "for all elements; for the Tonelli-Shanks routine all finite fields of odd order and all roots of unity of the full order", "why_tests_cant": "The fields have about 2^254 and 2^508 elements. Tonelli-Shanks runs a different number of effective rounds for each 2-adic order, the largest orders are met with probability 2^-28, and the constant-time code goes on computing after the root is found.", "anchors": ["halo2curves/src/arithmetic.rs:sqrt_tonelli_shanks", "halo2curves/src/bn256/fr.rs:sqrt", "halo2curves/src/bn256/fq2.rs:sqrt", "halo2curves/src/bn256/fq2.rs:legendre"]}
{"id": "C95", "title": "Points of G2 are encoded in 64 bytes faithfully", "statement": "Encoding a point of G2 and decoding the bytes gives the point back; different points have different encodings; decoding never panics; decoded points lie in the group of order p.", "quantifier": "for all points of the curve, and for all strings of 64 bytes", "why_tests_cant": "(False of the code: the sign of y is the parity of its first coordinate, which may be zero; bytes that are not canonical panic instead of being refused; points outside the group are accepted.) Tests encode random points, for which the first coordinate of y is zero with a probability of about 2^-254, and decode only what was encoded.", "anchors": ["halo2curves/src/derive/curve.rs:from_bytes", "halo2curves/src/derive/curve.rs:to_bytes", "halo2curves/src/bn256/fq2.rs:from_bytes", "halo2curves/src/bn256/curve.rs:G2Affine"]}
{"id": "C96", "title": "The commitment scheme without a trusted setup proves exactly the right values", "statement": "An opening proof made by the prover for the value of a committed polynomial at a point is accepted. For a wrong value no prover gets a proof accepted, but for one value of the first challenge, one of the second and two in each round, unless it finds a relation between the generators. Verification never panics on a proof. A sum of multiples of points evaluates to what was added to it, also when points repeat with either sign. The last generator can be given by a helper.", "quantifier": "for all polynomials, blinding factors, points, parameters with k at least 1, random values, challenges (no zero in the rounds for the prover) and for all adaptive provers", "why_tests_cant": "Tests open one random polynomial with drawn challenges. A cheating prover chooses its points after each challenge, so what it can reach is a tree of all challenges; and a zero challenge, for which prover and verifier differ, is never drawn. (k = 0 and parameters after shrink make the verifier panic.)", "anchors": ["halo2_proofs/src/poly/ipa/commitment.rs:ParamsIPA", "halo2_proofs/src/poly/ipa/commitment/prover.rs:create_proof", "halo2_proofs/src/poly/ipa/commitment/verifier.rs:verify_proof", "halo2_proofs/src/poly/ipa/msm.rs:MSMIPA", "halo2_proofs/src/poly/ipa/strategy.rs:SingleStrategy"]}
{"id": "C97", "title": "A batch of openings without a trusted setup is accepted only if each of them is", "statement": "Verifying several openings with the accumulating strategy of the inner product argument accepts exactly if every one of them would be accepted alone.", "quantifier": "for all lists of openings, parameters and challenges", "why_tests_cant": "(False of the code: openings are kept apart by a constant factor, 42, so two wrong claims cancel.) Tests batch good openings; a pair of wrong claims in the ratio -42 does not come up.", "anchors": ["halo2_proofs/src/poly/ipa/strategy.rs:AccumulatorStrategy", "halo2_proofs/src/poly/ipa/msm.rs:scale"]}
{"id": "C98", "title": "Opening many claims without a trusted setup accepts true claims and no false one", "statement": "With the inner product argument, a list of claims, each about a committed polynomial, a point and a value, is proved with one opening. If the claims are true, the proof is accepted. If they do not contradict each other and one is false, no proof is accepted, whatever the prover does, except for few values of the challenges. The verifier returns an answer for every proof, unless the challenge point is one of the queried points; then it panics.", "quantifier": "for all groups, parameters, lists of claims, points, values, blinding factors, random values, challenges and provers that choose each message after the challenges before it", "why_tests_cant": "A test opens a handful of polynomials honestly; soundness is about every prover, and the grouping of the claims by their sets of points has as many shapes as there are lists of claims.", "anchors": ["halo2_proofs/src/poly/ipa/multiopen.rs:construct_intermediate_sets", "halo2_proofs/src/poly/ipa/multiopen/prover.rs:create_proof", "halo2_proofs/src/poly/ipa/multiopen/verifier.rs:verify_proof", "halo2_proofs/src/poly/ipa/strategy.rs:SingleStrategy"]}
{"id": "C99", "title": "Contradictory claims about a commitment are not accepted", "statement": "If a list of claims gives two different values to the same commitment at the same point, verification of the opening fails.", "quantifier": "for all lists of claims, commitments, points, pairs of different values, proofs and challenges, in each of the three multi-opening schemes", "why_tests_cant": "(False of the code for SHPLONK, where the first value counts, and for the inner product argument, where the last one counts; true with one quotient per point.) Honest provers never contradict themselves, so no test of proving and verifying comes near it.", "anchors": ["halo2_proofs/src/poly/kzg/multiopen/shplonk.rs:construct_intermediate_sets", "halo2_proofs/src/poly/ipa/multiopen.rs:construct_intermediate_sets", "halo2_proofs/src/poly/kzg/multiopen/gwc.rs:construct_intermediate_sets"]}
{"id": "C100", "title": "The helper functions for circuits compute what their names say", "statement": "The polynomial for a range check vanishes exactly on the numbers below the range; the one for a bit exactly on 0 and 1; selecting by a bit gives the one or the other expression. The bits of a field element from one position to another are those of its canonical number, and asking for bits that do not exist panics. A number is split into windows that are each in range and together give the number modulo the word size. Little-endian bits and numbers are converted both ways without loss.", "quantifier": "for all fields, expressions, rows, ranges, field elements, positions, window sizes and lists of bits", "why_tests_cant": "Tests draw random numbers for a few window sizes in one field. That a product of differences has no other roots is a statement about all of a field of 2^254 elements.", "anchors": ["halo2_gadgets/src/utilities.rs:range_check", "halo2_gadgets/src/utilities.rs:bool_check", "halo2_gadgets/src/utilities.rs:ternary", "halo2_gadgets/src/utilities.rs:bitrange_subset", "halo2_gadgets/src/utilities.rs:decompose_word", "halo2_gadgets/src/utilities.rs:lebs2ip", "halo2_gadgets/src/utilities.rs:i2lebsp"]}
{"id": "C101", "title": "A conditional swap puts out its two inputs in one of the two orders", "statement": "If the constraints of a conditional swap hold, one of its two outputs is the number in the first input cell, whatever a prover wrote; an honest prover's swap meets the constraints, and the outputs are the inputs, swapped exactly if the bit is set. What is laid out does not depend on the values.", "quantifier": "for all fields, input cells, values, bits, regions and contents of the cells", "why_tests_cant": "A test runs the chip on random honest values; what a dishonest prover can write into the cells is not tried.", "anchors": ["halo2_gadgets/src/utilities/cond_swap.rs:CondSwapChip"]}
{"id": "C102", "title": "A decomposition by running sum has the windows of the number", "statement": "If the constraints of a strict decomposition into n windows of k bits hold, the number is below 2^(k n) and the cells returned are its quotients by powers of 2^k; an honest prover meets the constraints if the number fits. If keys can be made, proofs can be made.", "quantifier": "for all prime fields, numbers, window sizes up to 3 bits, window counts and contents of the cells", "why_tests_cant": "(False of the code: the number of windows is compared to a word size that the caller gives, not to the field, so zero has two decompositions; and a wrong number of windows is only noticed when the value is known.) Tests use honest values and the window counts that fit.", "anchors": ["halo2_gadgets/src/utilities/decompose_running_sum.rs:RunningSumConfig"]}
{"id": "C103", "title": "A lookup range check bounds the number in the cell", "statement": "If the constraints of a strict range check with n words of k bits hold, the number in the cell is below 2^(n k), whatever a prover wrote, and the cells returned are its quotients; without the strict flag the number is a sum of words and the rest. A short check bounds the number by the given number of bits. Checks whose words could exceed the field are refused. Honest provers meet the constraints whenever the number is in range.", "quantifier": "for all prime fields, table sizes, word counts, numbers, and contents of the cells", "why_tests_cant": "Tests try a few numbers in one field, with one forged bit shift. The short check multiplies in the field, and whether some element outside the range is shifted back into it is a question about all elements.", "anchors": ["halo2_gadgets/src/utilities/lookup_range_check.rs:LookupRangeCheckConfig"]}
{"id": "C104", "title": "The Poseidon permutation in a circuit is the permutation on numbers", "statement": "If the constraints of the region that the chip fills hold, the cells it returns contain the Poseidon permutation of what the cells given contain, whatever a prover wrote; this is what the permutation function of the same parameters returns. An honest prover meets the constraints. It panics exactly if constants are missing. The inverse that comes with a generated matrix is its inverse.", "quantifier": "for all fields, widths, numbers of rounds, round constants, invertible matrices, input states and contents of the cells", "why_tests_cant": "Tests run a few states with honest values. The chip computes two partial rounds in one row with the inverse matrix, so that other contents are excluded is a statement about all field elements.", "anchors": ["halo2_gadgets/src/poseidon/pow5.rs:Pow5Chip", "halo2_gadgets/src/poseidon/primitives.rs:permute", "halo2_gadgets/src/poseidon/primitives/mds.rs:generate_mds", "halo2_gadgets/src/poseidon/primitives/p128pow5t3.rs:P128Pow5T3"]}
{"id": "C105", "title": "The Poseidon hash in a circuit is the hash of the message in the cells", "statement": "If the constraints of all regions hold, the cell returned contains the hash (with constant input length) of what the message cells contain, which is the value that the hash function returns for these numbers. An honest prover meets the constraints. Every message but the empty one is hashed; the empty one panics in both.", "quantifier": "for all fields, widths, parameters as in C104, message lengths, messages and contents of the cells", "why_tests_cant": "Tests hash messages of one or two words. Padding words enter by other cells than message words, and messages of many blocks chain regions: a prover may try any of the cells between.", "anchors": ["halo2_gadgets/src/poseidon.rs:Hash", "halo2_gadgets/src/poseidon.rs:Sponge", "halo2_gadgets/src/poseidon/pow5.rs:PoseidonSpongeInstructions for Pow5Chip", "halo2_gadgets/src/poseidon/primitives.rs:Hash"]}
{"id": "C106", "title": "Points brought into a circuit are on the curve", "statement": "If the constraints of a witnessed point hold, the two cells contain a point of the curve, or zeros for the identity; if it was asked for a point that is not the identity, then a point that is not the identity. An honest prover with any such point meets the constraints; asked for a point that is not the identity, the identity is refused with an error. What is laid out does not depend on the values.", "quantifier": "for all curves y^2 = x^3 + b (Pallas is shown to be one of those meant), points, regions and contents of the cells", "why_tests_cant": "Tests witness a few points honestly. That zeros stand for the identity only is so because no point of the curve has a coordinate zero, a statement about all field elements.", "anchors": ["halo2_gadgets/src/ecc/chip/witness_point.rs:Config", "halo2_gadgets/src/ecc/chip.rs:EccInstructions::witness_point", "halo2_gadgets/src/ecc/chip.rs:EccInstructions::witness_point_non_id"]}
{"id": "C107", "title": "Complete addition in a circuit is the addition of points", "statement": "If the constraints of a complete addition hold, the cells returned contain the sum of the two points in the cells given, whatever a prover wrote: for different points, equal points, opposite points and the identity. An honest prover meets the constraints for all pairs of points.", "quantifier": "for all curves as in C106, pairs of points, regions and contents of the cells", "why_tests_cant": "Tests add a few pairs with honest values. Three of the cells are inverses that only exist in some of the cases, and a prover may write anything into them.", "anchors": ["halo2_gadgets/src/ecc/chip/add.rs:Config", "halo2_gadgets/src/ecc/chip.rs:EccInstructions::add"]}
{"id": "C108", "title": "Incomplete addition in a circuit is the addition of points, where it is accepted", "statement": "If the constraints of an incomplete addition hold, the cells returned contain the sum of the two points in the cells given; for the identity, equal or opposite points an error is returned or no prover meets the constraints.", "quantifier": "for all curves as in C106, pairs of points, regions and contents of the cells", "why_tests_cant": "(False of the code: if both points are the same, the constraints say nothing about the result.) Tests check that an honest prover gets an error; a dishonest one does not run this code.", "anchors": ["halo2_gadgets/src/ecc/chip/add_incomplete.rs:Config", "halo2_gadgets/src/ecc/chip.rs:EccInstructions::add_incomplete"]}
{"id": "C109", "title": "The product of a point and a number in a circuit is the multiple of the point", "statement": "If the constraints of a variable-base scalar multiplication hold, the cells returned contain the multiple of the point in the cells given by the number in the cell given, whatever the prover wrote into the cells. For every number and every point other than the identity the honest prover succeeds; keys do not depend on values.", "quantifier": "for all points of Pallas other than the identity, all scalars of its base field, all regions and contents of the cells", "why_tests_cant": "(False of the code: the base used in the double-and-add loops is not tied to the base given.) Tests run an honest prover, who writes the right base; whether another content of 1400 cells is accepted they cannot ask.", "anchors": ["halo2_gadgets/src/ecc/chip/mul.rs:Config", "halo2_gadgets/src/ecc/chip/mul/incomplete.rs:Config", "halo2_gadgets/src/ecc/chip/mul/complete.rs:Config", "halo2_gadgets/src/ecc/chip/mul/overflow.rs:Config", "halo2_gadgets/src/ecc/chip.rs:EccInstructions::mul"]}
{"id": "C110", "title": "Arithmetic in the fields of secp256k1 is arithmetic modulo the two primes", "statement": "In both fields of secp256k1 sums, differences, products, squares, negatives, powers, inverses, square roots, conversions from numbers and bytes, comparison and parity are those of the integers modulo the prime; every element has one stored form and one encoding of 32 bytes. The group of points has as many elements as there are scalars and is generated by the generator of the code.", "quantifier": "for all elements of both fields, all exponents of 256 bits, all byte strings, all points", "why_tests_cant": "The primes are within 2^130 of 2^256, so that carries above 256 bits occur in many sums but some carries within the reduction almost never; random tests meet few of them.", "anchors": ["halo2curves/src/secp256k1/fp.rs:Fp", "halo2curves/src/secp256k1/fq.rs:Fq", "halo2curves/src/secp256k1/curve.rs:Secp256k1Affine", "halo2curves/src/derive/field.rs:field_arithmetic"]}
{"id": "C111", "title": "Encodings of points of secp256k1 are unique", "statement": "Every point of secp256k1 is written as 33 bytes from which it is read back; what is read is a point of the curve; and each point is read from one string of bytes only.", "quantifier": "for all points and all strings of 33 bytes", "why_tests_cant": "(The last part is false of the code.) A test encodes points and decodes them again; strings that no encoding produces are not tried.", "anchors": ["halo2curves/src/derive/curve.rs:from_bytes", "halo2curves/src/derive/curve.rs:to_bytes", "halo2curves/src/secp256k1/curve.rs:Secp256k1Compressed"]}
{"id": "C112", "title": "The product of a fixed point and a scalar in a circuit is the multiple of the point", "statement": "If the constraints of a full-width fixed-base multiplication hold, the cells of the scalar contain 85 digits to the base 8 and the cells returned contain the multiple of the fixed point by the number with these digits, whatever the prover wrote. For every scalar the honest prover succeeds and gets its multiple; keys do not depend on the scalar.", "quantifier": "for all fixed points of Pallas other than the identity with tables that fit them, all scalars, regions and contents of the cells", "why_tests_cant": "Tests use honest provers with a few scalars. Every window is an incomplete addition, right only because no two of the points met are equal or opposite for any of the 2^255 digit strings; and the sign of each window point is fixed by which of two numbers is a square.", "anchors": ["halo2_gadgets/src/ecc/chip/mul_fixed.rs:Config", "halo2_gadgets/src/ecc/chip/mul_fixed/full_width.rs:Config", "halo2_gadgets/src/ecc.rs:FixedPoint::mul"]}
{"id": "C113", "title": "The product of a fixed point and a short signed number in a circuit is the multiple of the point", "statement": "If the constraints of a short fixed-base multiplication hold, the magnitude given is a number of 64 bits, the sign given is 1 or -1, and the cells returned contain the multiple of the fixed point or its negative, as the sign says, whatever the prover wrote. For all such numbers the honest prover succeeds; keys do not depend on values.", "quantifier": "for all fixed points of Pallas other than the identity with tables that fit them, all contents of the cells, all magnitudes and signs", "why_tests_cant": "Tests try a few magnitudes that are too large and a few signs with honest values; whether another content of the cells is accepted they cannot ask.", "anchors": ["halo2_gadgets/src/ecc/chip/mul_fixed.rs:Config", "halo2_gadgets/src/ecc/chip/mul_fixed/short.rs:Config", "halo2_gadgets/src/ecc.rs:FixedPointShort::mul"]}
{"id": "C114", "title": "The product of a fixed point and an element of the base field in a circuit is the multiple by its canonical number", "statement": "If the constraints of a fixed-base multiplication by a base field element hold, the cells returned contain the multiple of the fixed point by the number from 0 to p - 1 that the element in the cell given stands for, and by no number congruent to it, whatever the prover wrote. For every element the honest prover succeeds; keys do not depend on values.", "quantifier": "for all fixed points of Pallas other than the identity with tables that fit them, all elements of the base field, all regions and contents of the cells", "why_tests_cant": "Small elements have a second representation x + p in 255 bits, which the running sum accepts; only the canonicity checks exclude it. Tests try a few elements with the digits an honest prover uses.", "anchors": ["halo2_gadgets/src/ecc/chip/mul_fixed.rs:Config", "halo2_gadgets/src/ecc/chip/mul_fixed/base_field_elem.rs:Config", "halo2_gadgets/src/ecc.rs:FixedPointBaseField::mul"]}
{"id": "C115", "title": "Two fixed-base multiplications by one scalar use the same number", "statement": "If two full-width fixed-base multiplications in one circuit are given the same scalar, the products are multiples of the two fixed points by one and the same number, whatever the prover wrote; and the scalar that a multiplication returns can be used in another.", "quantifier": "for all pairs of fixed points of Pallas with tables that fit them, all scalars, regions and contents of the cells", "why_tests_cant": "(False of the code.) An honest prover writes the same windows twice, so a test sees equal scalars; that nothing holds another prover to it is visible only in what constraints are missing.", "anchors": ["halo2_gadgets/src/ecc.rs:FixedPoint::mul", "halo2_gadgets/src/ecc.rs:EccInstructions::mul_fixed", "halo2_gadgets/src/ecc/chip.rs:EccScalarFixed", "halo2_gadgets/src/ecc/chip/mul_fixed/full_width.rs:Config::assign"]}
{"id": "C116", "title": "The tables computed for a fixed point fit it", "statement": "For a point that is not the identity, the computation of the interpolation coefficients and the search for the numbers z with their roots do not panic; the search succeeds exactly if every window has a fitting z below 65536000 and returns the least; what both return makes a table from which the fixed-base circuits compute multiples of this point.", "quantifier": "for all points of Pallas but the identity, all numbers of windows from 2 to 85, and all correct square root functions", "why_tests_cant": "The tests compute the tables of a few random points; that the interpolation is right in all windows of all points, and that no window meets the identity and panics, is not settled by samples.", "anchors": ["halo2_gadgets/src/ecc/chip/constants.rs:compute_window_table", "halo2_gadgets/src/ecc/chip/constants.rs:compute_lagrange_coeffs", "halo2_gadgets/src/ecc/chip/constants.rs:find_zs_and_us", "halo2_proofs/src/arithmetic.rs:lagrange_interpolate"]}
{"id": "C117", "title": "The check offered for precomputed tables accepts only tables of the point", "statement": "If test_zs_and_us passes for a point, given numbers z and roots u and a number of windows, then these form, with the computed coefficients, a table of this point with that number of windows.", "quantifier": "for all points of Pallas but the identity, all lists of numbers and of roots, all numbers of windows from 2 to 85", "why_tests_cant": "(False of the code.) The check is itself used in tests, with tables of the right length; that it says nothing when the lists are too short is seen only by quantifying over the lists.", "anchors": ["halo2_gadgets/src/ecc/chip/constants.rs:test_zs_and_us"]}
{"id": "C118", "title": "The circuit's Sinsemilla hash is the hash of the words in the cells", "statement": "hash_to_point on pieces makes keys whatever the values. Whatever the prover puts into the cells, if the constraints hold then the number in the cell of each piece is the one with the hashed words as digits, the running sums returned contain what is left of it, and if these words have a hash (no step meets an exceptional case), the cells returned contain it: for each word m, (A + S_m) + A, starting from Q. For each message that has a hash, an honest prover's run succeeds, meets the constraints and gives the hash. The 1024 generators in the code are points of Pallas, no two the same up to sign.", "quantifier": "for all points Q of Pallas, all tables of 1024 points, all non-empty lists of pieces that can be made, all values of the cells (soundness) and all words (completeness)", "why_tests_cant": "Tests hash a few messages with an honest prover. That no assignment of the cells gives another result or other words quantifies over all assignments; the doubled y coordinate that is never a cell, the sign choices in the slopes and the joins between pieces are where a constraint could be missing.", "anchors": ["halo2_gadgets/src/sinsemilla/chip/hash_to_point.rs:hash_message", "halo2_gadgets/src/sinsemilla/chip/hash_to_point.rs:hash_all_pieces", "halo2_gadgets/src/sinsemilla/chip/hash_to_point.rs:hash_piece", "halo2_gadgets/src/sinsemilla/chip.rs:SinsemillaChip::configure", "halo2_gadgets/src/sinsemilla/chip/generator_table.rs", "halo2_gadgets/src/sinsemilla/primitives/sinsemilla_s.rs:SINSEMILLA_S", "halo2_gadgets/src/sinsemilla/primitives/addition.rs"]}
{"id": "C119", "title": "The Sinsemilla gadget works for every message its types admit", "statement": "Every message that can be made from pieces is hashed in the circuit to a result that is determined by the cells of its pieces, and the circuit takes every message of words that the hash outside of circuits takes.", "quantifier": "for all lists of pieces of at most 253 words in all, all points Q but the identity, all values of the cells", "why_tests_cant": "(False of the code.) Tests use messages of at least one word and fewer than 253; the empty message, the longest one and a piece without words are not tried.", "anchors": ["halo2_gadgets/src/sinsemilla/message.rs", "halo2_gadgets/src/sinsemilla.rs:Message::from_pieces", "halo2_gadgets/src/sinsemilla.rs:Message::from_bitstring", "halo2_gadgets/src/sinsemilla/chip/hash_to_point.rs:hash_message", "halo2_gadgets/src/sinsemilla/primitives.rs:Pad"]}
{"id": "C120", "title": "The circuit's Merkle root is a root over the leaf", "statement": "Whatever the prover puts into the cells, if the constraints of hash_layer hold then the layer number has 10 bits and the cell returned contains the Sinsemilla hash of the 10 bits of the layer number, 255 bits that stand for the left child and 255 bits that stand for the right child, in this order (if these words have a hash). If the constraints of calculate_root hold, there are siblings and sides with which the cell returned is the root over the leaf, one layer after the other. For all children whose own bits have a hash, an honest prover's run of hash_layer succeeds, meets the constraints and gives that hash; keys are made whatever the children.", "quantifier": "for all points Q of Pallas, all tables of 1024 points, all numbers of layers and assignments of chips to layers, all values of the cells (soundness) and all children (completeness)", "why_tests_cant": "Tests check one root with an honest prover. That pieces which straddle the children cannot be filled otherwise (the 5 + 5 bits in the middle piece, the running sums reused for the decomposition) quantifies over all assignments.", "anchors": ["halo2_gadgets/src/sinsemilla/merkle/chip.rs:hash_layer", "halo2_gadgets/src/sinsemilla/merkle/chip.rs:MerkleChip::configure", "halo2_gadgets/src/sinsemilla/merkle.rs:calculate_root", "halo2_gadgets/src/sinsemilla.rs:MessagePiece::from_subpieces", "halo2_gadgets/src/utilities/cond_swap.rs:swap"]}
{"id": "C121", "title": "The hash of a layer is determined by its children", "statement": "Two ways to fill the cells that meet the constraints of hash_layer and agree on the layer and on both children agree on the hash.", "quantifier": "for all values of the cells", "why_tests_cant": "(False of the code, as its comments say.) Only another encoding of a child, which no honest prover makes, shows it.", "anchors": ["halo2_gadgets/src/sinsemilla/merkle/chip.rs:hash_layer"]}
{"id": "C122", "title": "The circuit's Sinsemilla commitment is the hash of the message plus the multiple of R", "statement": "Whatever the prover puts into the cells, if the constraints of CommitDomain::commit hold then the cells of the pieces contain the words that were hashed and the cells returned contain the Sinsemilla hash of these words plus a multiple of R by a number of 255 bits (if the words have a hash), and short_commit returns the first coordinate of it. For every message that has a hash and every scalar an honest prover's run succeeds, meets the constraints and gives the commitment with that scalar; keys are made; a scalar that was used before panics.", "quantifier": "for all points Q and R of Pallas (R with tables of 85 windows), all tables of 1024 points, all messages with at least one piece, all values of the cells (soundness) and all scalars (completeness)", "why_tests_cant": "The crate has a test for one message with one scalar and an honest prover. That the hash and the multiple cannot be exchanged or left out of the sum, also where they are equal or opposite, quantifies over all assignments.", "anchors": ["halo2_gadgets/src/sinsemilla.rs:CommitDomain::commit", "halo2_gadgets/src/sinsemilla.rs:CommitDomain::short_commit", "halo2_gadgets/src/ecc.rs:NonIdentityPoint::add", "halo2_gadgets/src/ecc/chip.rs:extract_p"]}
{"id": "C123", "title": "A Sinsemilla commitment says nothing about the message", "statement": "For every message that has a hash, every point is the commitment to it with exactly one scalar, and an honest prover with this scalar meets the constraints of CommitDomain::commit and gets that point.", "quantifier": "for all messages of words that have a hash, all points R other than the identity, and all points", "why_tests_cant": "It is a statement about all scalars, of which there are about 2^254, and rests on the number of points of the curve.", "anchors": ["halo2_gadgets/src/sinsemilla.rs:CommitDomain::commit"]}
