{
"parseDigits": [
"C117_version_names"
],
"scanPath": [
"C53_directory"
],
"handleTargetPoint": [
"C119_commands_recorded"
],
"handleTargetUnit": [
"C119_commands_recorded"
],
"UnitCmd.default": [
"C119_never_commanded"
],
"toDigit16": [
"C55_either_case"
],
"printReplay": [
"C137_section_fails"
],
"Values.count": [
"C142_generated_partial"
],
"debugBytes": [
"C101_bytes_as_text"
],
"convert": [
"C162_options",
"C166_balance_partial"
],
"VMembers.length": [
"C169_tag_loop",
"C169_constant_only",
"C169_untagged_only"
],
"latin1": [
"C55_handle_parts"
],
"byteTable": [
"C167_text_agrees"
],
"emitted": [
"C171_*"
],
"fieldMorph": [
"C190_*"
]
}