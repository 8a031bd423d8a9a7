# Formal model of ElectroUnion/egts-gate in Lean 4

Generated by `tools/mkdesign.py` from `tools/design_head.md`, `tools/plan.py`, `MANIFEST.json`, `properties.jsonl` and `tools/axioms.txt`
(the first version, written before the proofs, is in the history of this repository).

## 1. Architecture

| Layer | Lean modules | Go source |
|---|---|---|
| Go run-time pieces | `Verif/Go/*`: byte slices with capacity, little-endian, `bytes.Reader/Buffer` (short reads keep the stale tail of the buffer), `strconv`, `fmt.Sprintf("%0Nb")`, float64, time, protobuf wire format | standard library, `golang/protobuf` |
| Codec | `Verif/Model/*`: crc, fourteen subrecords, `StorageRecord`, RecordDataSet, ServiceDataSet, PtResponse, Package, `PackageJson` (ToBytes), `Work` (how many records and subrecords are read) | `libs/egts/*.go` |
| Gate | `Model/Server` (handler of a connection), `Gate` (many connections, Run, Stop), `Timer` (clock), `Stall` (clients that do not read), `Storage`, `StorageCalls`, `Json`, `JsonText`, `JsonIndent`, `Main`, `Config` | `cli/receiver/**` |
| Client | `Model/PacketGen`, `Model/CmdLine`, `Model/TimeParse` | `cli/packet-gen/main.go`, with `flag.Parse`, `strconv.ParseInt`, `strconv.ParseFloat` and `time.Parse` of the Go library |
| Script | `Model/SendEgts` | `tools/send_egts.py` with Python's text mode, `readlines` and `bytes.fromhex`; ASCII files; the receiver at the other end is `Model/Server` |
| Specifications | `Verif/Spec/*`, `Props/StorageWire`: independent of the code (polynomial CRC, wire offsets, grammar of bodies, JSON reader, calendar, connection strings, expected answers, ...) | - |
| Properties | `Verif/Props/*`: the theorems of MANIFEST.json, with examples that meet their hypotheses | - |
| Lemmas | `Verif/Lemmas/*` | - |
| Tests | `Verif/Tests/GoVectors`: the test vectors of the Go test suite evaluated on the model; `Verif/Tests/Recorded`: the 126 recorded packets of the repository, decoded by the model and compared with the output of an independent decoder (tests of the transcription, not proofs) | `libs/egts/*_test.go`, `test/egts_packages.csv` |

A method that mutates its receiver becomes a function returning the new value. Decoders run in a small monad `Dec σ` = receiver state + unread
bytes, with outcomes `ok | err | panic | diverge`; the receiver state is kept on errors, because the server reads `pkg.PacketIdentifier` after a
failed `Decode`. Strings are byte lists, as in Go. Fixed-width integers are `UInt8/16/32/64` (wrap-around is modelled). A slice is its bytes plus
its spare capacity where the code reslices (`Package.Decode`). A connection is a list of chunks (what each `Read` may return) and a tail (end of
file, error or silence); a run is a list of effects (`write`, `save`) and the way it ends. Many connections are an interleaving semantics whose
steps are single storage calls, writes, packet reads, arrivals, accepts and `Stop`.

## 2. Trusted base

- **Lean's kernel** (4.33.0) and the theorems of Mathlib it re-checks. No `native_decide`, no `bv_decide`, no axioms of our own; no unproved goal.
- **Axioms** of the theorems named in MANIFEST.json (full table in AXIOMS.md): @AXCOUNT@. `propext`, `Classical.choice` and `Quot.sound` are the
  three standard axioms of Lean.
- **The transcription**: that the definitions in `Verif/Model` and `Verif/Go` say what the Go code does. Each carries the file and the lines it
  models; `Tests/GoVectors` evaluates it on the vectors of the Go tests and `Tests/Recorded` on the packets recorded in the repository.
- **The specifications** in `Verif/Spec`, `Props/StorageWire` and the statements of the theorems.
- Examples and counterexamples are evaluated in the kernel (`decide`, `decide +kernel`, `kernel_rfl`); universally quantified statements are not
  proved that way, except over one byte or a few flags as a finite lemma inside a proof (all 256 values or all combinations, i.e. exhaustively).

### What is modelled

- `libs/egts`: all functions of `crc.go`, `egts_pkg.go`, `egts_pt_response.go`, `service_data_records.go`, `record_data.go`, all fourteen
  `egts_sr_*.go` including the `StorageRecord` messages of `egts_sr_egtsplus_data.go` (fields, tags, Encode/Decode/Length, getters, names of the reasons; not the
  descriptor, the registration and `CompactTextString`); the result codes of
  `const_types.go`. Error values are modelled as their classes, not their texts (`errors.go`, `fmt.Errorf`); the two
  errors whose text quotes the input (`record_data.go:58, 77`) carry the quoted type, length and content.
- `cli/receiver/server`: `handleConn` with its reading loop, the response builders, `Run`, `Stop`, the connection timer.
- `cli/receiver/storage`: `Repository` (AddStore, Save, LoadStorages), `packet.go`, `default.go`, and for the six connectors `Init`, `Save`,
  the connection strings and calls they make.
- `cli/receiver/config`, `cli/receiver/main.go` (configuration, storages, start), `cli/packet-gen/main.go`.

### What is not modelled, or simplified

- The client libraries of the storages (amqp, pq, nats, nsq, tarantool, redis): arbitrary functions from the history of calls (or a world state)
  to success or failure. Their documented parsing of connection strings is specified in Spec/ConnString.
- `golang/protobuf`: modelled in Go/Protobuf from its documented behaviour (proto2, struct tags); the codec theorems outside C80-C82, C108, C124, C126 and C127 (telematic_text) hold for any
  protobuf implementation (class `Platform`). nil elements of repeated messages are not modelled.
- `encoding/json`: tree and text of the records are modelled, the text of floats in Model/FloatText (C84, C98, C102, C104 and C105 are stated for
  any formatting with the properties C109 proves of it). The indented form printed by `LogConnector` is in
  Model/JsonIndent, `Package.ToBytes` in Model/PackageJson (simplifications at the head of that file).
- `gopkg.in/yaml`: the parser is not modelled; C118 assumes of it only that files of a narrow, precisely specified form (Spec/Yaml: the form of the
  shipped file) are read as YAML defines them; what is done with the result is modelled (Model/Config). Command lines are modelled
  (Model/CmdLine, Model/TimeParse; a 64-bit platform); `ParseFloat` is modelled as exact value followed by correct rounding, not by its algorithms.
- Floats: NaN, infinities, signed zeros, subnormals are not modelled (they cannot come from the wire; for values in the stated ranges they do not
  occur). Conversion of floats outside the range of uint32 is implementation-dependent in Go and arbitrary here (`Platform.f2u32OutOfRange`).
- TCP: chunks in order, then end, error or silence. `conn.Write` is assumed to return (the code ignores its result), except in Model/Stall, where
  it blocks when the client does not read. Scheduling is arbitrary interleaving at the granularity of section 1; the Go memory model is not (the code has no data
  shared between connections except the storages).
- Real time: Model/Timer has a clock with arbitrary arrival times; processing takes no time.
- Memory: allocation never fails; `int` is 64 bits.
- `SrTermIdentity.Decode`: the field NetworkIdentifier after a failed decode (never read) is simplified. `LogConnector`'s nil check and the server
  address of packet-gen's `Dial` are simplified; logging is not modelled, except where a property speaks about it (C49, C54) and the messages of handleConn (Model/Log, C119).

## 3. Properties that the code violates

For each, a theorem with a counterexample and the strongest true variant (suffix `_partial`), in most cases with the exact behaviour.

@VIOLATED@

## 4. Properties, plan and method

@PLAN@

## 5. Tests of the theorems

`seeded/LOG.jsonl`: one line per wrong program. Each edit was made in a scratch copy, the whole project rebuilt. A theorem counts as failing only
if its statement is false of the edit (`claim_theorems_false_of_edit`, judged by hand), not merely because a proof broke; where no statement was
false, theorems were added or tightened (`theorems_tightened`). Edits that survive because no claim is false of them say so. Lines with an id `aNNNN` are
mutations made by a script (an operator, a constant, a comparison, a branch or a string of a model definition replaced; the modules rebuilt up to
the first failure): they name the first theorem that failed, and were judged one by one only if nothing failed. Every survivor is either rejected
by now (`theorems_tightened`) or does not change the observable behaviour (`note`).
