#!/usr/bin/env python3
"""The sixth list of seeded bugs: the files with the keys, and how they are written (writes seeded/bugs6.json, the input of seed.py)."""
import json, pathlib
B = []
def bug(i, file, definition, old, new, edit, claims, count=1):
    B.append({"id": i, "file": file, "definition": definition, "edits": [{"file": file, "old": old, "new": new, "count": count}], "edit": edit, "claims": claims.split()})

K = "Model/KeyFile.lean"
bug("kf-01", K, "SWFlags.mask", "| .pointAtInfinity => 0x40\n  | .yIsNegative => 0x80", "| .pointAtInfinity => 0x80\n  | .yIsNegative => 0x40", "flag bits swapped by the writer only", "C90 C91")
bug("kf-02", K, "SWFlags.fromU8", "| true, true => none", "| true, true => some .pointAtInfinity", "both flags accepted as the point at infinity", "C90")
bug("kf-03", K, "SWFlags.fromU8", "| false, true => some .pointAtInfinity\n  | true, false => some .yIsNegative", "| false, true => some .yIsNegative\n  | true, false => some .pointAtInfinity", "flag bits swapped by the reader only", "C90 C91")
bug("kf-04", K, "leBytes", "UInt8.ofNat (x % 256) :: leBytes n (x / 256)", "leBytes n (x / 256) ++ [UInt8.ofNat (x % 256)]", "numbers written with the most significant byte first", "C90 C91")
bug("kf-05", K, "leNat", "b.toNat + 256 * leNat l", "b.toNat + 255 * leNat l", "wrong base in the reader", "C90 C91")
bug("kf-06", K, "fpBytes", "def fpBytes : Nat := 48", "def fpBytes : Nat := 47", "one byte too few for a coordinate", "C90")
bug("kf-07", K, "fpBytes", "def fpBytes : Nat := 48", "def fpBytes : Nat := 49", "one byte too many for a coordinate", "C90")
bug("kf-08", K, "fromBigint", "if n < basePrime then", "if n ≤ basePrime then", "the modulus itself is accepted as a coordinate", "C90")
bug("kf-09", K, "fromBigint", "if n < basePrime then Reader.pure n else Reader.fail .invalidData", "Reader.pure n", "coordinates are reduced instead of refused", "C90")
bug("kf-10", K, "clearLast", "[b &&& ~~~m]", "[b]", "flags not removed before the coordinate is read", "C90 C91")
bug("kf-11", K, "orLast", "[b ||| m]", "[m]", "flags overwrite the last byte", "C90 C91")
bug("kf-12", K, "readFpFlags", "l.getLastD 0", "l.headD 0", "flags looked for in the first byte", "C90 C91")
bug("kf-13", K, "Coordinate Fp2", "write x := writeFp x.c0 ++ writeFp x.c1\n  writeFlags x f := writeFp x.c0 ++ writeFpFlags x.c1 f", "write x := writeFp x.c1 ++ writeFp x.c0\n  writeFlags x f := writeFp x.c1 ++ writeFpFlags x.c0 f", "writer has c1 before c0", "C90 C91")
bug("kf-14", K, "Coordinate Fp2", "x.c0 * y.c0 - 5 * (x.c1 * y.c1)", "x.c0 * y.c0 + 5 * (x.c1 * y.c1)", "wrong non-residue", "C90")
bug("kf-15", K, "Coordinate Fp2", "x.c0 * y.c1 + x.c1 * y.c0⟩", "x.c0 * y.c1⟩", "cross term forgotten", "C90")
bug("kf-16", K, "Coordinate Fp2", "le x y := x.c1.val < y.c1.val || x.c1.val == y.c1.val && x.c0.val ≤ y.c0.val", "le x y := x.c0.val < y.c0.val || x.c0.val == y.c0.val && x.c1.val ≤ y.c1.val", "ordered by c0 first: the sign of a point is another", "C90")
bug("kf-17", K, "bls1", "⟨1, subgroup⟩", "⟨4, subgroup⟩", "constant of another curve", "C90")
bug("kf-18", K, "bls2", "⟨⟨0, twistB⟩, subgroup⟩", "⟨⟨twistB, 0⟩, subgroup⟩", "constant of the twist in the wrong coordinate", "C90")
bug("kf-19", K, "Affine.toFlags", "if Coordinate.le P.y (Coordinate.neg P.y) then .yIsPositive else .yIsNegative", "if Coordinate.le P.y (Coordinate.neg P.y) then .yIsNegative else .yIsPositive", "sign inverted", "C90")
bug("kf-20", K, "Affine.toFlags", "if P.infinity then .pointAtInfinity else if", "if", "no flag for the point at infinity (the writer sets it itself: harmless there)", "")
bug("kf-21", K, "Affine.isOnCurve", "if !P.infinity then Coordinate.mul P.y P.y = Coordinate.add (Coordinate.mul (Coordinate.mul P.x P.x) P.x) E.b else true", "true", "points are not checked to be on the curve", "C90")
bug("kf-22", K, "Affine.check", "P.isOnCurve E && E.subgroup P", "P.isOnCurve E", "subgroup not checked", "C90")
bug("kf-23", K, "Affine.check", "P.isOnCurve E && E.subgroup P", "P.isOnCurve E || E.subgroup P", "one of the two checks is enough", "C90")
bug("kf-24", K, "Affine.check", "P.isOnCurve E && E.subgroup P", "E.subgroup P", "curve equation not checked", "C90")
bug("kf-25", K, "writePoint", "if P.infinity then Coordinate.write (Coordinate.zero : F) ++ Coordinate.writeFlags (Coordinate.zero : F) .pointAtInfinity\n  else Coordinate.write P.x ++ Coordinate.writeFlags P.y P.toFlags", "Coordinate.write P.x ++ Coordinate.writeFlags P.y P.toFlags", "point at infinity written with its coordinates (zero in every valid key: harmless)", "")
bug("kf-26", K, "writePoint", "Coordinate.write P.x ++ Coordinate.writeFlags P.y P.toFlags", "Coordinate.write P.x ++ Coordinate.write P.y", "no flags for a finite point", "C90")
bug("kf-27", K, "writePoint", "Coordinate.write P.x ++ Coordinate.writeFlags P.y P.toFlags", "Coordinate.write P.y ++ Coordinate.writeFlags P.x P.toFlags", "coordinates swapped", "C90 C91")
bug("kf-28", K, "readPoint", "if f = .pointAtInfinity then Reader.pure Affine.identity\n  else", "if f = .pointAtInfinity then Reader.pure ⟨x, y, true⟩\n  else", "point at infinity keeps the coordinates in the file", "C90")
bug("kf-29", K, "readPoint", "if P.check E then Reader.pure P else Reader.fail .invalidData", "Reader.pure P", "points read without validation", "C90")
bug("kf-30", K, "readPoint", "if P.check E then Reader.pure P else Reader.fail .invalidData", "if P.check E then Reader.pure P else Reader.pure Affine.identity", "invalid points become the identity", "C90")
bug("kf-31", K, "writeVec", "leBytes 8 l.length ++", "leBytes 4 l.length ++", "length written with four bytes", "C90 C91")
bug("kf-32", K, "writeVec", "leBytes 8 l.length ++", "leBytes 8 (l.length - 1) ++", "length off by one", "C90 C91")
bug("kf-33", K, "readVec", "readMany read (leNat l)", "readMany read (leNat (l.take 1))", "only the low byte of the length", "C90")
bug("kf-34", K, "readVec", "readMany read (leNat l)", "readMany read (leNat (l.take 2))", "only two bytes of the length (enough for the shipped key)", "C90")
bug("kf-35", K, "readMany", "Reader.pure (x :: l)", "Reader.pure (l ++ [x])", "vectors reversed", "C90 C91")
bug("kf-36", K, "writeVk", "writePoint vk.gammaG2 ++ writePoint vk.deltaG2", "writePoint vk.deltaG2 ++ writePoint vk.gammaG2", "gamma and delta swapped by the writer", "C90 C91")
bug("kf-37", K, "readVk", "let gammaG2 ← readPoint E2\n  let deltaG2 ← readPoint E2", "let deltaG2 ← readPoint E2\n  let gammaG2 ← readPoint E2", "gamma and delta swapped by the reader", "C90 C91")
bug("kf-38", K, "writePk", "writeVec writePoint pk.hQuery ++ writeVec writePoint pk.lQuery", "writeVec writePoint pk.lQuery ++ writeVec writePoint pk.hQuery", "h and l swapped by the writer", "C90 C91")
bug("kf-39", K, "readPk", "let hQuery ← readVec (readPoint E1)\n  let lQuery ← readVec (readPoint E1)", "let lQuery ← readVec (readPoint E1)\n  let hQuery ← readVec (readPoint E1)", "h and l swapped by the reader", "C90 C91")
bug("kf-40", K, "writePk", "writePoint pk.betaG1 ++ writePoint pk.deltaG1", "writePoint pk.betaG1", "delta forgotten", "C90 C91")
bug("kf-41", K, "readPk", "let bG1Query ← readVec (readPoint E1)", "let bG1Query := aQuery", "second query not read", "C90 C91")
bug("kf-42", K, "preimageVk", "parse (readVk E1 E2) file", "parse (readVk E1 E2) (file.drop 1)", "first byte skipped", "C90 C91")
bug("kf-43", K, "parse", "| .ok (x, _) => .ok x", "| .ok (x, []) => .ok x\n  | .ok (_, _ :: _) => .error .unwrapNone", "bytes after the key are refused", "C90")
bug("kf-44", K, "writeParams", "(writePk pk, writeVk vk)", "(writePk pk, writeVk pk.vk)", "verifying key taken from the proving key", "")
bug("kf-45", K, "writeParams", "(writePk pk, writeVk vk)", "(writeVk vk, writePk pk)", "files swapped", "C90")
bug("kf-46", K, "readExact", "| [] => .error .ioError", "| [] => .ok ([], [])", "short reads accepted", "C90 C91")
bug("kf-47", K, "basePrime", "258664426012969094010652733694893533536393512754914660539884262666720468348340822774968888139573360124440321458177", "258664426012969094010652733694893533536393512754914660539884262666720468348340822774968888139573360124440321458179", "wrong modulus", "C90")

W = "Model/WriteParams.lean"
bug("wp-01", W, "createFile", "| .done _ :: rs, _ => (.ok, some [], rs)", "| .done _ :: rs, file => (.ok, some (file.getD []), rs)", "files are not emptied by create (and the writers start from empty files: only the state before the first write changes)", "C91")
bug("wp-02", W, "createFile", "| .failed :: rs, file => (.error, file, rs)", "| .failed :: rs, _ => (.error, some [], rs)", "a failed create empties the file", "")
bug("wp-03", W, "createFile", "| .failed :: rs, file => (.error, file, rs)", "| .failed :: rs, file => (.ok, file, rs)", "error of create ignored", "C91")
bug("wp-04", W, "createFile", "| .interrupted :: rs, file => createFile rs file", "| .interrupted :: rs, file => (.error, file, rs)", "interrupted create is an error", "C91")
bug("wp-05", W, "writeLoop", "writeLoop rs ((b :: bytes).drop (n + 1)) (file ++ (b :: bytes).take (n + 1))", "writeLoop rs [] (file ++ (b :: bytes).take (n + 1))", "a short write is taken for a whole one", "C91")
bug("wp-06", W, "writeLoop", "writeLoop rs ((b :: bytes).drop (n + 1)) (file ++ (b :: bytes).take (n + 1))", "writeLoop rs ((b :: bytes).drop n) (file ++ (b :: bytes).take (n + 1))", "a byte is written twice after a short write", "C91")
bug("wp-07", W, "writeLoop", "| .done 0 :: rs, b :: bytes, file => (.error, b :: bytes, file, rs)", "| .done 0 :: rs, b :: bytes, file => (.ok, b :: bytes, file, rs)", "a write of no byte is a success", "C91")
bug("wp-08", W, "writeLoop", "| .interrupted :: rs, b :: bytes, file => writeLoop rs (b :: bytes) file", "| .interrupted :: rs, b :: bytes, file => (.error, b :: bytes, file, rs)", "interrupted write is an error", "C91")
bug("wp-09", W, "writeLoop", "| .failed :: rs, b :: bytes, file => (.error, b :: bytes, file, rs)", "| .failed :: rs, b :: bytes, file => writeLoop rs bytes file", "a byte is dropped at an error", "C91")
bug("wp-10", W, "writeLoop", "(file ++ (b :: bytes).take (n + 1))", "((b :: bytes).take (n + 1) ++ file)", "bytes put before the contents", "C91")
bug("wp-11", W, "Writer.flush", "(r.1, ⟨r.2.1, r.2.2.1, r.2.2.2⟩)", "(r.1, ⟨w.buffer, r.2.2.1, r.2.2.2⟩)", "buffer not cleared by flush", "C91")
bug("wp-12", W, "Writer.flush", "(r.1, ⟨r.2.1, r.2.2.1, r.2.2.2⟩)", "(r.1, ⟨[], r.2.2.1, r.2.2.2⟩)", "buffer cleared although the write failed: the bytes in it are dropped, and drop writes nothing more", "")
bug("wp-13", W, "Writer.makeRoom", "then w.flush else (.ok, w)", "then (.ok, w) else (.ok, w)", "buffer not flushed to make room", "C91")
bug("wp-14", W, "Writer.makeRoom", "then w.flush else (.ok, w)", "then (.ok, { w with buffer := [] }) else (.ok, w)", "buffer thrown away to make room", "C91")
bug("wp-15", W, "Writer.writeAll", "if bytes.length ≥ capacity then", "if bytes.length > capacity then", "a piece of exactly the capacity goes to the buffer", "")
bug("wp-16", W, "Writer.writeAll", "(l.1, ⟨v.buffer, l.2.2.1, l.2.2.2⟩)", "(.ok, ⟨v.buffer, l.2.2.1, l.2.2.2⟩)", "error of a direct write ignored", "C91")
bug("wp-17", W, "Writer.writeAll", "else (.ok, { v with buffer := v.buffer ++ bytes })", "else (.ok, { v with buffer := bytes ++ v.buffer })", "bytes put before the buffer", "C91")
bug("wp-18", W, "Writer.writeAll", "(.ok, { w with buffer := w.buffer ++ bytes })\n", "(.ok, { w with buffer := bytes })\n", "buffer overwritten", "C91")
bug("wp-19", W, "Writer.writePieces", "if r.1 ≠ .ok then r else r.2.writePieces capacity l", "r.2.writePieces capacity l", "errors ignored between pieces", "C91")
bug("wp-20", W, "writeFile", "let d := r.2.flush\n", "let d := (Status.ok, r.2)\n", "drop does not write the rest of the buffer", "C91")
bug("wp-21", W, "writeFile", "(if d.1 = .killed then .killed else r.1, d.2.file, d.2.responses)", "(d.1, d.2.file, d.2.responses)", "drop reports its error (and hides that of the pieces)", "C91")
bug("wp-22", W, "writeFile", "if r.1 = .killed then (.killed, r.2.file, r.2.responses)\n  else", "if r.1 = .killed then (.killed, [], r.2.responses)\n  else", "file empty after the process was killed", "")
bug("wp-23", W, "writeParamsRun", "| (.error, a, _) => (.panicked, ⟨some a, g⟩)", "| (.error, a, _) => (.ok, ⟨some a, g⟩)", "error while the first file is written not reported", "C91")
bug("wp-24", W, "writeParamsRun", "| (.error, g, _) => (.error, ⟨f, g⟩)", "| (.error, g, _) => (.ok, ⟨f, g⟩)", "error of the second create not reported", "C91")
bug("wp-25", W, "writeParamsRun", "match createFile rs old.vk with", "match (Status.ok, old.vk, rs) with", "second file not emptied before the first is written", "C91")
bug("wp-26", W, "writeParamsRun", "match writeFile capacity vk [] rs with", "match writeFile capacity pk [] rs with", "proving key written to both files", "C91")
bug("wp-27", W, "writeParamsRun", "match writeFile capacity pk [] rs with", "match writeFile capacity pk (old.pk.getD []) rs with", "new key appended to the old", "C91")
bug("wp-28", W, "writeParamsRun", "| (.killed, a, _) => (.killed, ⟨some a, g⟩)", "| (.killed, a, _) => (.killed, ⟨some a, old.vk⟩)", "second file keeps its old contents when the process is killed in the first", "C91")

out = pathlib.Path(__file__).resolve().parent.parent / "seeded" / "bugs6.json"
out.write_text(json.dumps(B, indent=1, ensure_ascii=False) + "\n")
base = pathlib.Path(__file__).resolve().parent.parent / "lean" / "Verif"
for b in B:
    for e in b["edits"]:
        n = (base / e["file"]).read_text().count(e["old"])
        if n != e["count"]:
            print("BAD", b["id"], n)
print(len(B))
