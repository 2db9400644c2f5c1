#!/usr/bin/env python3
"""The eleventh list of seeded bugs: repeated and concurrent runs of the key generator (writes seeded/bugs11.json, the input of seed.py)."""
import json, pathlib
B = []
base = pathlib.Path(__file__).resolve().parent.parent / "lean" / "Verif"
def bug(i, f, header, old, new, edit, claims):
    text = (base / f).read_text()
    a = text.index(header)
    b = text.index("\n\n", a)
    block = text[a:b]
    assert block.count(old) >= 1, i
    B.append({"id": i, "file": f, "definition": header.split()[1].split("(")[0], "edits": [{"file": f, "old": block, "new": block.replace(old, new, 1), "count": 1}], "edit": edit, "claims": claims.split()})
M = "Model/TestVectors.lean"
G = "def generateTestVectors "
L = "def loadKeys "
C = "def call "
W = "def writeAt "
bug("tv-01", M, G, "if r.1 = .error then .panicked else r.1", "r.1", "error of write_params returned instead of a panic", "C97")
bug("tv-02", M, G, "(.panicked, old)", "(.panicked, ⟨some [], some []⟩)", "files emptied before the keys are made", "C97")
bug("tv-03", M, G, "(S.pieces (writePk pk)) (S.pieces (writeVk pk.vk))", "(S.pieces (writeVk pk.vk)) (S.pieces (writePk pk))", "the two keys written to each other's file", "C97")
bug("tv-04", M, G, "(S.pieces (writePk pk)) (S.pieces (writeVk pk.vk))", "(S.pieces (writePk pk)) (S.pieces (writePk pk))", "proving key written to both files", "C97")
bug("tv-05", M, G, "(.panicked, old)", "(.ok, old)", "failure of the key generator ignored", "C97")
bug("tv-06", M, G, "(if r.1 = .error then .panicked else r.1, r.2)", "(if r.1 = .error then .panicked else .ok, r.2)", "all ends reported as success", "C97")
bug("tv-07", M, "def history ", "history S l (generateTestVectors S x files).2", "history S l files", "runs write nothing", "C97")
bug("tv-08", M, L, "preimageVk E1 E2 b", "preimageVk E1 E2 a", "verifying key read from the proving key's file", "C97")
bug("tv-09", M, L, "preimagePk E1 E2 a", "preimagePk E1 E2 b", "proving key read from the verifying key's file", "C97")
bug("tv-10", M, L, "return (pk, vk)", "return (pk, pk.vk)", "verifying key taken from the proving key", "C97 C98")
bug("tv-11", M, G, "setup S.domain S.g1 S.g2 x.secrets x.circuit", "setup S.domain S.g1 S.g2 { x.secrets with delta := 1 } x.circuit", "one secret is not random", "C97 C98")
bug("tv-12", M, G, "old x.responses", "⟨none, none⟩ x.responses", "old files deleted first", "C97")
bug("tv-13", M, W, "++ bytes ++ file.drop (offset + bytes.length)", "++ bytes", "a write cuts the rest of the file off", "C98")
bug("tv-14", M, W, "file.drop (offset + bytes.length)", "file.drop offset", "a write inserts", "C98")
bug("tv-15", M, C, "(.createdPk, { files with pk := some [] })", "(.createdPk, { files with pk := some (files.pk.getD []) })", "file not emptied when opened", "C98")
bug("tv-16", M, C, "(.writingPk 0, { files with vk := some [] })", "(.writingPk 0, files)", "second file not created", "C98")
bug("tv-17", M, C, "(.writingPk (i + bytes.length), { files with pk := writeTo files.pk i bytes })", "(.writingPk (i + n + 1), { files with pk := writeTo files.pk i bytes })", "offset moves past the end", "C98")
bug("tv-18", M, C, "{ files with pk := writeTo files.pk i bytes }", "{ files with vk := writeTo files.vk i bytes }", "proving key written to the second file", "C98")
bug("tv-19", M, C, "else (.writingVk 0, files)", "else (.done, files)", "verifying key not written", "C98")
bug("tv-20", M, C, "let bytes := (pk.drop i).take (n + 1)", "let bytes := pk.take (n + 1)", "every write begins with the first byte", "C98")
bug("tv-21", M, C, "if i < pk.length then", "if i + 1 < pk.length then", "last byte of the proving key not written", "C98")
bug("tv-22", M, C, "let bytes := (pk.drop i).take (n + 1)\n      (.writingPk (i + bytes.length), { files with pk := writeTo files.pk i bytes })", "let bytes := (pk.drop i).take (n + 1)\n      (.writingPk (i + bytes.length), { files with pk := files.pk.map (· ++ bytes) })", "files opened for appending", "C98")
bug("tv-23", M, "def Machine.run ", "Function.update m.stage i c.1", "fun _ => c.1", "runs share one position", "C98")
bug("tv-24", M, "def Machine.run ", "call (pk i) (vk i) n", "call (pk i) (pk i) n", "proving key written to both files", "C98")
bug("tv-25", M, C, "{ files with vk := writeTo files.vk i bytes }", "{ files with vk := writeTo files.vk 0 bytes }", "second file always written at its beginning", "C98")
json.dump(B, open(base.parent.parent / "seeded" / "bugs11.json", "w"), indent=1)
for b in B:
    for e in b["edits"]:
        n = (base / e["file"]).read_text().count(e["old"])
        if n != e["count"]:
            print("BAD", b["id"], n)
print(len(B))
