{
"addI32": "equivalent: the sum is taken modulo 2^32 either way",
"genOptional": "equivalent: only a comment was edited",
"i32AsUsize": "equivalent on files shorter than 2^63 bytes: a negative count is larger than any file either way",
"listedBuilds": "equivalent: the listed and the unlisted builds are dispatched alike in that range",
"checkMod": "equivalent: only the number that tells two error cases apart in the model is changed",
"Op.run create": "equivalent for the writer: the file is only created right after its directory was made",
"snapshotJob": "equivalent: only the number that tells two error cases apart in the model is changed",
"checkBounds": "equivalent: only the number that tells two error cases apart in the model is changed",
"SUnit.default": "equivalent: the colour of a fresh unit is always overwritten before the unit is stored",
"scanEntries": "equivalent: the recursive call is given the room that is left, so the truncation never removes anything (dead code in /repo too)",
"enclosedMorph": "equivalent: the flag is overwritten by the caller (fieldMorph) before it is read",
"asI8": "equivalent on every value that can be decoded: the fields have 8 bits and start at -128",
"T3HeightMap.parse": "equivalent: only the number that tells two error cases apart in the model is changed",
"subUsize": "equivalent: the subtraction never goes below zero on the values that reach it",
"VDesc.kind": "equivalent: an array and a dynamic array have the same entry in the table of types"
}