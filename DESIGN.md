# Formal model of zedseven/pemv in Lean 4 — design

`properties.jsonl` lists the properties (C01…). `MANIFEST.json` maps each to theorem names.
`lean/Verif/Model` is the model, `lean/Verif/Spec` the independent specifications,
`lean/Verif/Proofs` helper lemmas, `lean/Verif/Props` the property theorems, one file per group,
each with `example`s showing that the hypotheses are met by concrete non-trivial inputs.
`lean/Verif/Conformance` replays the repository's own unit tests on the model, and the groups of its CHANGELOG.md
(as `example`s: they test the model against the code's stated behaviour and prove no property).
`lean/Verif/Axioms.lean` prints the axioms of every property theorem. `tools/` holds the generators of
`properties.jsonl`, of `MANIFEST.json` and of the tables of `Model/Tables.lean` (transcribed from the
macro invocations in the Rust text), and the tool that tests the theorems against edited models;
`seeded/LOG.jsonl` is its log.
`tools/differential.py` runs the model beside a second transcription of the Rust text (`tools/reference.py`, written
independently of the model) on random inputs and compares all output, colours included: 60 000 inputs, no difference.
Like the conformance examples this tests the transcription; no theorem rests on it.

## 1. What is modelled, and how

| Rust | Lean | remarks |
|---|---|---|
| `u8`, `u16`, `u32`, `u64` | `UInt8`, `Nat` with explicit bounds, `UInt32` | |
| `&str` / `String` | `List Char` (Unicode scalar values); `as_bytes` = UTF-8 encoding | byte-indexed slicing of strings is modelled on the UTF-8 bytes |
| `usize` arithmetic | `Machine` record: width in bits, overflow checks on/off; add/mul panic or wrap | lets us state both the 64-bit no-panic theorem and the 32-bit counterexample |
| `Result<_, ParseError>`, panics | `Out α = ok / err / panic / diverge` | out-of-range index or slice is `panic`; fuel exhaustion is `diverge` and is proved impossible |
| `while` / `loop` | fuelled recursion over the *indices* of the Rust code | refinement lemmas then connect to suffix-based functions and to grammars |
| macros `enum_*`, `bitflag_value!` | tables interpreted by a function that mirrors the macro expansion (deep embedding) | one table per macro invocation in the source |
| terminal output | list of events (text / colour change / reset) plus a "panicked" bit | rendered text is the concatenation of the texts |
| `clap` (option table and reading) | `Model/Cli` | contract in section 4 |
| `figment`, `termcolor`, `atty`, `serde`, `indoc` | not modelled; their *results* are inputs of the model | contracts used are listed in section 4 |

## 2. Properties: model and proof

| id | model | specification | proof |
|---|---|---|---|
| C01–C03 | `Model/Util` hex functions over UTF-8 bytes | `Spec/Text`: keep the hex digits, pair them | induction over characters/bytes; bytes of non-ASCII scalars are ≥ 0x80 |
| C04 | `byte_slice_to_u32/u64`, failing `assert!` = panic | base-256 value | fold = value, bound < 2^32 / 2^64 |
| C05–C07 | `trim_leading_0_bytes`, `num_dec_digits`, `parse_str_to_u16` | `Spec/Text` | induction |
| C08, C09 | `is_masked_*`, `EmvData`, raw tag display | one character equal to all | list lemmas; case analysis |
| C10–C18, C20 | `Model/Ber`: index-based loops, machine arithmetic, recursion into constructed values | `Spec/Ber`: inductive grammar of objects, encoder | refinement to a function on the remaining bytes (`Proofs/Ber`, `BerParse`), then to the grammar; `BerTree` for nesting, `Truncated` for cuts; C20 is refuted by a witness and proved away from the last position |
| C19 | `parse_tag_metadata` | bits of the first byte | whole byte domain |
| C21–C28 | `Model/Ingenico`: index-based loop | `Spec/Ingenico`: records and encoder | the same way; C27 refuted by a witness, proved for even digit counts |
| C29–C31 | `Model/Auto` | the two parsers | case analysis; C31 refuted and exactly characterised |
| C32–C37, C64, C65 | `Model/Process`: `identify_tag`, `process_emv_tag`, blocks | `Spec/Process`, `Spec/Dictionary` (names written out again from the EMV dictionary) | structural induction on trees; tables |
| C38, C39 | `Model/Process`: `sort_nodes` | `Spec/Sort` | stable insertion sort; uniqueness of stable sorting; induction on trees |
| C40–C45, C67 | `Model/Bitflags` (interpretation of `bitflag_value!`), `Model/Tables` | `Spec/Emv` (EMV byte/bit tables), `Spec/Labels` | generic theorems over all well-formed layouts; each concrete layout by evaluation |
| C46, C66 | `Model/Output`: `display_breakdown` | `Spec/Drawing`: which glyph belongs in which column | column invariant over the loops |
| C47, C63 | enum tables | `Spec/Codes` | evaluation of whole tables lifted to ∀ |
| C48–C52 | `Model/Values` | `Spec/Codes`, `Spec/Emv` | digit arithmetic, list lemmas |
| C53–C56, C68 | `Model/Output`, `Model/Display` | `Spec/Document` (lines, levels), `Spec/Safety` (allowed characters, terminal state) | induction over chunks / actions / trees |
| C57–C59 | `Model/Main` | `Spec/Run` | case analysis over the dispatch, using the no-panic theorems |
| C60–C62 | `Model/Config`: sources as partial maps | `Spec/Config`: first source that gives a value | lookup in merged sources; finite cases |
| C69–C72 | `Model/Cli`: table of options, clap's reading of them, whole executions | `Spec/Cli`: documented names, consistent command lines, value in force | evaluation of the table; induction over the options given; C58 and C60 for the run |
| C73–C78 | all of the above | `Spec/Whole`: objects as records, hiding, what an option reads | relations between whole runs: the round-trip theorems for C73, unique readability of documents (`Proofs/ReadBack`) for C74, C13 for C75, unique readability of messages for C76, permutations for C77, induction on nesting for C78 |
| C79 | displays of single values, `Model/Main` | `Spec/Alike`: `SameMeaning` | the document specification of C54 is injective up to meaning (`Proofs/Alike`, `Proofs/AlikeCodes`), lifted to runs by C58 |
| C80 | all documents, `Model/Main` | `Spec/Breaks`: cutting text into lines, lines that introduce a tag | every kind of line is checked (`Proofs/Breaks`), tables by evaluation; induction over trees |
| C81 | the same | line breaks and characters are counted, lines are cut and measured | children fit into their parent's value (`Proofs/Lines`), so lines ≤ 8 · bytes · depth and depth ≤ bytes / 2; every line but those with a tag is at most 250 characters plus tabs, by a check of all tables of texts (`Proofs/Width`), and the tags together are at most bytes · depth long |
| C82 | `Model/Terminal` (contract of `termcolor`) | `Spec/Terminal`: an ANSI terminal that reads escape sequences | induction over the actions; texts have no escape characters (C54) |
| C83 | `Machine`: width of `usize`, overflow checks | runs are compared as a whole | the parsers equal their specification wherever there is room, the output depends on the mode only through the indentation (`Proofs/Builds`, `Proofs/Truncated`) |
| C84 | `berParse`, `processBlock`, display | the documents of two runs are related, `Spec.deeper` | a template alone is one element; constructed tags have no decoder |
| C85 | `Model/Order`: `PartialEq`, `Eq`, `Ord`, `PartialOrd` of the processed types | `Spec.LexLe`, `eraseBlock` | the comparison of processed blocks is equality of what they are made from; processing is a function |
| C86 | `Model/Build`: the build script over an oracle for generators and file system | `Spec/Build`: a plan and the results before the first failure | `carry` turns `?` into the plan |
| C87 | `Model/Cli` (`useValues`) | the declared missing value given explicitly | the two lists of values are the same |
| C88 | `Model/Argv`: clap's splitting of arguments (contract) | `Spec/Argv`: the ways to write a use, as a relation | reading is the inverse of writing, in both directions |
| C89 | `Model/World`: variables, file search, profile (figment's contract), over an oracle for syntax | `Spec/World`: names of variables, nearest file, as relations | each lookup decides its relation; C70 and C88 do the rest |
| C90 | all of the above, from arguments and surroundings to the streams | `Spec/Ends`: the proper endings | C57, C70, C88, C89; values are no longer than arguments |
| C91 | `Model/Work`: the parsers of `Model/Ber`, `Ingenico`, `Auto` with a counter | numbers of steps against powers of the size of the input | same results by commuting with the projection; per object or record a linear (for `remove(0)` quadratic) cost plus that of its value, and the squares of parts fit into the square of the whole |
| C92 | `Model/Stream`: `LineWriter`, `BufWriter` and `print!` of the standard library (contract) over a reader that takes a number of bytes | the bytes of `stdoutOf`, positions of its line breaks | an invariant of the stream (`Proofs/Stream`): what has arrived and is buffered is what was written, or the room is used up |
| C93 | the parsers, `Model/Main` | pairs of objects or records that are the same or both masked (`Spec/Masked`) | the reader finds the same nodes for both (induction over the list); for templates C84 and C74 |
| C94 | `Model/World.exitStatus` (`clap`'s and the runtime's statuses are contracts) | `Succeeds`, `Fails`, `Panics` | case analysis on the execution; the refutation by C89 and C58 |
| C95 | `Model/TlvParsing` (sort, display), `Model/Main` | permutations of lines (`cutLines`), rearrangements that keep the order among equal tags | what is shown is a walk over the tree, and sorting permutes the children at every level; insertion sort is stable |
| C96 | as C95 | `showLines`, the run for the object alone | the lines of an object sit in one piece, whose place depends only on its tag |
| C97 | `run`, `processBlock`, the parsers | `CanReport`, `ValueError` | the errors of an option are exactly those listed for it |
| C98 | `run`, all display functions | `Says`, `ReservedServiceCode`, `ReservedCvr`, `ReservedValue`, `SpellsRfu` | RFU is shown exactly for reserved codes (or values that contain the word) |
| C99 | `runProcess`, `run` | `Answer`, `BlockReads`, `BerReads`, `IngReads`, `ContentsOf`, `FirstFault` (`Spec/Complete`) | one relation gives the answer to every request; it is total and functional, and the program computes it (from C10, C15, C21, C28, C31, C34, C57 to C89) |
| C100 | `ingParse`, `run` | `Record.WF`, `render`, `Record.text` | no record is the beginning of another (`Proofs/Cut`), C21; display as in C75 |
| C101 | `autoParse` | `Record.Canonical`, `digitsIn` (`Spec/Cut`) | C14, C30, C100; the digits of a canonical record are those of an object |
| C102 | `berParse`, `ingParse`, `run`, `Machine` with 32 bits | `FarEnd`, `FarRecord`, `WideRecord`, `SameLow`, `Rewritten`, `FarInput` (`Spec/Narrow`) | the loops on 32 and 64 bits compared step by step; a sum that does not fit panics or ends before its start, and slicing then panics |
| C103 | `Config.tryFrom`, `Config.provider`, `Figment.mergeProvider` (`Model/Provider`), `settings` | `firstOf`, `inForce` (`Spec/Config`) | unfolding the merge; the settings are those of C60 without a command line |
| C104 | `OptionalCode`, `Iad.hasFormat` (`Model/Conversions`), `cvRuleTryFrom`, `ruleFieldText`, `Iad.tryFrom` | the codes, written out | evaluation of all bytes lifted to ∀; C51 |
| C105 | `wrongByteCount`, `bitflagUniqueValues`, `bitflagDisplayBits` (`Model/Testing`) | inputs with one bit; masks of a table of flags | meaning of the loops by induction; for flags, a table without shared bits is read bit by bit; evaluation for the types tested |
| C106 | `lexOs`, `executeOs` (`Model/OsArgs`) | `atBroken` (`Spec/OsArgs`) | an argument that is not text does the same as some arguments that are; C88 |
| C107 | `helpTable` (`Model/Help`), `cliTable`, `execute`, `stdoutOf` | `numbersIn`, `quotedIn`, `wordsIn`, `headings` (`Spec/Help`) | evaluation text by text; two lists of options that say the same have the same effect (C70, C77); C71, C24, C11 |
| C108 | `release`, `cargoToml` (`Model/Release`; the commands are an oracle, what they do to the repository a contract) | `Released`, `NewVersion`, `IsManaged` (`Spec/Release`) | case analysis on the statuses; the pattern of `sed` as an equation |
| C109 | `berParseOn`, `ingParseOn`, `autoParseOn` (`Model/Calls`) | `LooksInto`, `RecordsLookInto` (`Spec/Calls`) | a step of either loop with any parser for nested values (`berStep_any`, `ingStep_patch`); induction over the rest of the input, then over the room; C11, C13, C14, C29 |
| C110 | `printBytesPretty`, `execute`, `run` | `seenDump`, `hexColumns`, `WholeLinesDo`, `CopyOf` (`Spec/Copied`) | the digits of a line are those of its bytes and of its text; counting leaves at most one of the latter, which shifts the digits of the lines below; C71, C73, C84 |
| C111 | `berParse`, `ingParse`, `run` | `Holds`, `SameObjects`, `Detects` (`Spec/Objects`) | a node is a function of its tag and value; a level in the order of tags is determined by its objects tag by tag; C10, C21, C73, C74 |
| C112 | `run`, `displayLayout`, `displayIac`, `tvrLayout`, `cvrLayout` | `Alarms`, `Alarming`, `InColour` (`Spec/Alarms`) | C99 (the answer to every request), then line by line over the document; the alarming items of each table are computed |
| C113 | `search`, `compile`, `ripgrep`, `useCheckPasses` (`Model/Ci`) | `linesOf`, `Above`, `Misplaced` (`Spec/Ci`) | the places where the pattern matches, then lines; refuted for public and indented statements, line ends of Windows and unreadable files |
| C114 | `parseSubject`, `commitParsers`, `groupOf`, `groupCommits`, `commitLine`, `releaseLines`, `changelogLines`, `tagNotes` (`Model/Changelog`) | `IsConventional`, `ListedUnder` (`Spec/Changelog`), `IsVersionOf` (`Spec/Release`) | what the first matching parser says, by cases of the message; the groups as an invariant of the fold; the message of `release` is one that is skipped |
| C115 | `execute` (`Model/Cli`), `berParse`, `autoParse`, `processEmvTag`, `displayCvmList` | `understand`, `NoRepeats`, `ShowsHelp`, `Acceptable`, `decoders`, `announcedTags` (`Props/Announced`) | corollaries of C10, C34, C56, C58, C70 and C87; the two announcements that are not literally so by a witness and by C87 |
| C116 | `gitignore`, `ignoreRule`, `globMatch`, `ignored`, `statusTells`, `addAll` (`Model/Ignore`), `buildMain`, `release` | `ToIgnore`, `IgnoredName` (`Spec/Ignore`), `releaseFiles`, `fileOf` (`Props/Ignore`) | the ten rules, computed; a name with an asterisk in front is one that ends so; a file is ignored if a rule fits a name on its path; the files of the build from C86, the refusal from C108 |
| C117 | `artifactsWorkflow`, `integrityWorkflow`, `begunSteps`, `jobPasses`, `workflowPasses`, `artifactsMade`, `clippyAtRelease`, `clippyInWorkflow` (`Model/Workflow`), `useCheckPasses`, `buildMain`, `release` | `ProgramBuilt`, `integritySteps` (`Spec/Workflow`) | a step is begun if those before it succeed; the two files by their steps; C86, C108 and C113 for the script, the release and the check |

Properties found FALSE of the code are kept in `properties.jsonl` with the word FALSE; their theorems are
a refutation with a concrete witness plus the part that does hold (`_partial`):

* C20: a long-form zero length (`81 00`) is rejected at the very end of a block.
* C27: an odd number of length digits loses the last digit (`8` is read as 0).
* C31: text with fewer than two hex digits that is not Ingenico data is accepted as an empty BER-TLV block.
* C36: unlisted codes in 9F35 and 9F39 abort the whole block.
* C43: CV rules with unlisted method or condition codes are drawn with zero bits there.
* C55: indentation is an 8-bit number: beyond 255 levels it panics or restarts at 0.
* C87: `--colour` without a value is rejected, although `always` is declared as its meaning then.
* C93: a masked value inside a template is given away by the size and the bytes shown for the template; and when the format is
  detected and records are followed by something else, the lengths of masked values decide what is read.
* C94: a failure because of the data has exit status 0, like success.
* C101: when the format is detected, Ingenico records that are cut off can be taken for BER-TLV.
* C108: the release script tags the commit before and announces success if `git commit` fails.
* C113: the check for misplaced `use` statements does not find public and indented ones, none with the line ends of
  Windows, and passes if a file cannot be read.

Other behaviour worth knowing, stated inside true properties: on 32-bit targets the parsers can panic, and a release build accepts wrong lengths (C16,
C26, C102); a masked 9F10 is labelled as CCD-compliant (C33); a reader of the output that leaves early makes it panic (C92); a configuration value of the wrong type is a panic (C60).

## 3. Trusted base

* Lean 4.33.0 kernel. Every theorem depends on at most `propext`, `Classical.choice`, `Quot.sound`
  (printed by `lean/Verif/Axioms.lean`). No own axioms, no `sorry`, no `native_decide`/`bv_decide`.
  No Mathlib module is imported.
* The correspondence between the Rust text in `/repo` and the Lean definitions, made by reading; each
  definition cites file and lines.
* The specifications in `lean/Verif/Spec`: they are what the theorems claim, and are to be read.

### Which parts of the code are modelled

| file | modelled | not modelled |
|---|---|---|
| src/util.rs | everything but the tests | |
| src/error.rs | the error type and its texts | |
| src/macros.rs, src/emv/bitflag_values.rs | the expansion of the `enum_*!` and `bitflag_value!` macros as functions of a table; the drawing | the macro syntax itself; `Debug`/`Eq` derives |
| src/emv/**, src/non_emv/** | all parsers, values, tables, processing, sorting, display | tests; `PartialOrd` of types that are never sorted |
| src/output_colours.rs | the two colour specifications | |
| src/config/** | which file, profile and variables are read, precedence, colour choice, sort preference | the syntax of TOML and of values in variables |
| src/main.rs | `main`: settings, dispatch, errors, sorting | |
| src/cli.rs | the table of options (names, aliases, value parsers, defaults, groups, conflicts), splitting `argv` into options and values, reading them, looking them up, the help texts of the options (`Model/Help`) | the layout of help, version and error texts |
| build.rs | control flow, variables, names | what `clap_mangen` and `clap_complete` write |
| release.sh, Cargo.toml | the script over an oracle for its commands, the lines of the manifest | tags with characters special to `sed`; Cargo.lock |
| src/testing_macros.rs | `Model/Testing` | the messages of failed assertions (a failed assertion is a panic) |
| cliff.toml | the parsers of messages, groups, order and the lines of a release (`Model/Changelog`) | empty lines of the template, how dates are written, unreleased changes without a tag, links |
| .gitignore | all of it (`Model/Ignore`) | letter case on Windows, other kinds of patterns (there are none) |
| .github/workflows/artifacts.yml, integrity.yml | jobs, runners, steps, conditions, tolerated failures, names of artifacts (`Model/Workflow`) | events that start them, versions of actions, options of the commands other than those of the lints |
| .github/workflows/integrity.yml | the check for misplaced `use` statements (`Model/Ci`) | what the tools of the other jobs do |

## 4. Simplifications, contracts and assumptions

* `Vec`/slice/`String` lengths are below `isize::MAX` (`Fits`), as Rust guarantees.
* Loops are fuelled; running out of fuel is the outcome `diverge`, proved impossible for the parsers.
* Past the `is_ascii` check of the Ingenico parser one character is one byte, so slices are taken on the
  list of characters. `str::from_utf8` is modelled for two-byte inputs, its only use.
* `str::to_lowercase` is modelled by its effect on ASCII and U+212A; no other character can lower-case to
  one of the four names.
* `Vec::sort` is modelled by an insertion sort; C39 proves that any stable sort gives the same.
* The Rust `sort_nodes` sorts a level before its children; the model the other way round
  (`c39_order_of_recursion` proves that this gives the same).
* The drawing routine computes on `u8`/`u64`; every operation that can leave its type is modelled as panicking when
  it does, in every build. `displayBreakdown_ideal` proves that none ever does, so that wrapping builds agree.
* Output is the list of texts and colour changes in program order; everything is on one stream. After a
  panic nothing more is written. `termcolor` semantics used: `set_color` replaces the style (the default
  `reset` flag of `ColorSpec`), `reset` restores the default. I/O errors are ignored by the program (`.ok()`)
  or panic inside `print!`; `Model/Stream` models both, for a reader that goes away and stays away, with the line
  buffering of the standard library. Other failures (a full disk that is emptied in between) are not modelled, nor is a
  failure to write the help text or the message on standard error.
* `termcolor`'s stream (`Model/Terminal`, not Windows): `Always`, `AlwaysAnsi`, and `Auto` with `TERM` set, not
  `dumb`, and `NO_COLOR` unset write ANSI sequences (`ESC[0m`, then `ESC[1m`, then `ESC[3xm`); otherwise colour
  changes write nothing.
* `clap` 4.0.15 is a contract (`Model/Cli`): options are resolved left to right by name or alias; `help` and
  `version` end the reading; `Set` options may not be repeated, `Append` options collect; value parsers and
  numbers of values are enforced; then groups, `conflicts_with` and `requires`; defaults fill what is missing
  and are reported as `DefaultValue`. No arguments at all print the help (`arg_required_else_help`).
  `Model/Argv` splits `argv` into options and values: `--name`, `--name=value`, clusters of letters with the rest
  as a value, `--`; an argument that begins with a hyphen (other than `-`) is never a value of its own.
  `Model/OsArgs`: a name, letter or value that is not valid Unicode is an error when reading comes to it.
* `figment`: a source is a partial map per profile; `merge` lets the newer source win per key (arrays are
  replaced); extraction looks at `global`, then the selected profile, then `default`; environment variables
  and merged pairs are `global`. The file is given as a function of the
  name of a section; that figment ignores the case of it is the hypothesis `CaseBlind` where it matters (C89).
  Names of variables are compared up to ASCII case (`Model/World`); a relative path is searched upwards from the
  working directory; a missing file is an empty source, an unreadable one an error of every extraction. Names of
  variables with full stops (nested keys) or white space, and texts that are not Unicode, are not modelled.
  `Figment::from` and `merge` of a provider (`Model/Provider`): the data are merged and the profile of the provider,
  if it has one, is selected; `serde` derives the conversions of the settings (`Raw`): the names of variants, arrays
  of characters, booleans.
* `ripgrep` (`Model/Ci`) is a contract: `^` and `$` match at lines, the dot matches line breaks too (`--multiline-dotall`),
  the exit status is 2 after an error, otherwise 0 with a match and 1 without. Files with zero bytes, files that are
  hidden or ignored by Git, and marks of the byte order are not modelled.
* How GitHub runs the workflows (`Model/Workflow`), and when the lints fail with and without `-D warnings -A unused`, is a
  contract, given at the head of the module.
* What git does with `.gitignore`, `git status --porcelain` and `git add -A` (`Model/Ignore`) is a contract
  (gitignore(5)): a file is ignored if a rule fits its name or that of a directory it is in; ignored files are left
  alone unless they are tracked.
* `git-cliff` (`Model/Changelog`) is a contract: a first line `type(scope)!: description` is a conventional commit; the
  first parser that matches decides; a commit without a group is in that of its type; `group_by` gives the groups in the
  order of their names. Of what follows the first line, only lines that begin with `BREAKING CHANGE: ` (or with a hyphen)
  are told from the body; other trailers and types with an exclamation mark within are not modelled. The history is
  linear with at most one tag for a commit, and the two lists of a release are written on the same day.
* The counter of `Model/Work` charges loop iterations, copied, scanned and moved elements; what the header of the
  module lists as free (comparisons, additions, pushing) is bounded by a constant per charged step. Allocation is
  not counted.
* stack and memory exhaustion (bounds on the recursion depth and on the bytes kept are theorems instead, C18).
* compile-time guarantees of rustc (exhaustiveness of `match`).
