#!/usr/bin/env python3
"""Transcribes the macro invocations (code tables, bitflag layouts, identify_tag) of /repo/src into
lean/Verif/Model/Tables.lean. Only a transcription aid: the output is checked in and reviewed."""
import re, sys
R = "/repo/src/"
def src(f): return open(R + f).read()
def unesc(s):
    # Rust line continuation: backslash newline skips following whitespace
    return re.sub(r'\\\n\s*', '', s)
def strip_comments(s): return re.sub(r'(?m)//.*$', '', s)
def lines_of(text, a, b):
    return text.count('\n', 0, a) + 1, text.count('\n', 0, b) + 1
def lean_str(s): return '"' + s.replace('\\', '\\\\').replace('"', '\\"') + '"'
def find_block(text, start):
    i = text.index('{', start); d = 0
    for j in range(i, len(text)):
        if text[j] == '{': d += 1
        elif text[j] == '}':
            d -= 1
            if d == 0: return i, j
out = []
def num(s):
    s = s.strip().replace('_', '')
    return int(s, 0)
def lower(n): return n[0].lower() + n[1:]
ENUMS = {}
def enum(f, name, leanname):
    t = src(f)
    m = re.search(r'pub enum %s: ([^,{]+?)(?:, ParseError, \{ \|_\| ParseError::(\w+) \})? \{' % name, t)
    i, j = find_block(t, m.end() - 1)
    body = strip_comments(t[i+1:j])
    a, b = lines_of(t, m.start(), j)
    typ = m.group(1).strip()
    vs = []
    for v in re.finditer(r'(\w+)\s*=\s*([^=]+?)\s*=>\s*"((?:[^"\\]|\\.|\\\n)*)",', body, re.S):
        vs.append((v.group(1), [p.strip() for p in v.group(2).split('|')], unesc(v.group(3))))
    ty = 'Byte' if typ == 'u8' else 'Text'
    out.append(f'/-- `{name}`, src/{f}:{a}-{b}. -/')
    out.append(f'def {leanname} : List (Variant {ty}) := [')
    L = []
    for n, ps, s in vs:
        if ps == ['_']: p = 'none'
        elif ty == 'Byte': p = 'some [' + ', '.join('0x%02X' % num(x) for x in ps) + ']'
        else: p = 'some [' + ', '.join(x + '.toList' for x in ps) + ']'
        L.append(f'  ⟨{lean_str(n)}, {p}, {lean_str(s)}⟩')
    out.append(',\n'.join(L) + ']\n')
    ENUMS[name] = (leanname, m.group(2))
def layout(f, name, leanname):
    t = src(f)
    m = re.search(r'pub struct %s: (\d+) \{' % name, t)
    i, j = find_block(t, m.end() - 1)
    a, b = lines_of(t, m.start(), j)
    body = strip_comments(t[i+1:j])
    out.append(f'/-- `{name}`, src/{f}:{a}-{b}. -/')
    out.append(f'def {leanname} : Layout where')
    out.append(f'  numBytes := {m.group(1)}')
    rows = []
    pos = 0
    for r in re.finditer(r'(?m)^\s*(\d+) \{', body):
        bi, bj = find_block(body, r.start())
        fb = body[bi+1:bj]
        fs = []
        for x in re.finditer(r'pub (\w+): (\w+) =\s*(\(0b[01_]+ >> \d+\)|0b[01_]+)\s*=>\s*(?:\((\w+), "((?:[^"\\]|\\.|\\\n)*)"\)|"((?:[^"\\]|\\.|\\\n)*)"),', fb, re.S):
            fname, ty, bits, sev, s1, s2 = x.groups()
            s = unesc(s1 if s1 is not None else s2)
            sev = lower(sev or 'Normal')
            if bits[0] == '(':
                mask, sh = bits[1:-1].split('>>'); mask = num(mask); sh = 'some %d' % num(sh)
            else: mask = num(bits); sh = 'none'
            if ty == 'bool': lt = '.bool'
            elif ty == 'u8': lt = '.u8'
            elif ty.startswith('Optional'):
                unk = {'OptionalCvMethod': 'Unknown (likely issuer or payment system-specific)', 'OptionalCvmCondition': 'Unknown (likely payment system-specific)'}[ty]
                lt = f'.optEnum {ENUMS[ty[8:]][0]} {lean_str(unk)}'
            else: lt = f'.enum {ENUMS[ty][0]} .{lower(ENUMS[ty][1])}'
            fs.append(f'      ⟨{lean_str(fname)}, {lt}, 0b{mask:08b}, {sh}, .{sev}, {lean_str(s)}⟩')
        assert len(fs) == fb.count('pub '), (name, r.group(1))
        rows.append(f'    ({r.group(1)}, [' + ('\n' + ',\n'.join(fs) if fs else '') + '])')
    out.append('  rows := [\n' + ',\n'.join(rows) + ']\n')
out.append('''import Verif.Model.Bitflags

/-!
# The tables: every invocation of `enum_*!` and `bitflag_value!`, and `identify_tag`

Transcribed by tools/gen_tables.py.
-/

namespace Pemv
''')
enum('non_emv/service_code.rs', 'Interchange', 'interchangeTable')
enum('non_emv/service_code.rs', 'Technology', 'technologyTable')
enum('non_emv/service_code.rs', 'AuthorisationProcessing', 'authorisationProcessingTable')
enum('non_emv/service_code.rs', 'AllowedServices', 'allowedServicesTable')
enum('non_emv/service_code.rs', 'PinRequirements', 'pinRequirementsTable')
enum('emv/ccd/cci.rs', 'FormatCode', 'formatCodeTable')
enum('emv/ccd/cci.rs', 'CryptogramVersion', 'cryptogramVersionTable')
enum('emv/ccd/cvr.rs', 'GenAc1ApplicationCryptogramType', 'genAc1Table')
enum('emv/ccd/cvr.rs', 'GenAc2ApplicationCryptogramType', 'genAc2Table')
enum('emv/cv_rule/cv_method.rs', 'CvMethod', 'cvMethodTable')
enum('emv/cv_rule/cvm_condition.rs', 'CvmCondition', 'cvmConditionTable')
enum('emv/cvm_results.rs', 'CvmResult', 'cvmResultTable')
enum('emv/transaction_type.rs', 'TransactionType', 'transactionTypeTable')
enum('emv/terminal_type.rs', 'TerminalType', 'terminalTypeTable')
enum('emv/pos_entry_mode.rs', 'PosEntryMode', 'posEntryModeTable')
enum('emv/authorisation_response_code.rs', 'AuthorisationResponseCode', 'arcTable')
layout('emv/tvr.rs', 'TerminalVerificationResults', 'tvrLayout')
layout('emv/tsi.rs', 'TransactionStatusInformation', 'tsiLayout')
layout('emv/terminal_capabilities.rs', 'TerminalCapabilities', 'terminalCapabilitiesLayout')
layout('emv/additional_terminal_capabilities.rs', 'AdditionalTerminalCapabilities', 'additionalTerminalCapabilitiesLayout')
layout('emv/ccd/cci.rs', 'CommonCoreIdentifier', 'cciLayout')
layout('emv/ccd/cvr.rs', 'CardVerificationResults', 'cvrLayout')
layout('emv/cv_rule/mod.rs', 'CardholderVerificationRule', 'cvRuleLayout')
t = src('emv/tlv_parsing/process_emv_tag.rs')
rows = re.findall(r'\[((?:0x\w\w(?:, )?)+)\] => Some\("([^"]*)"\)', t)
out.append('/-- The arms of `identify_tag`, src/emv/tlv_parsing/process_emv_tag.rs:32-155. -/')
out.append('def tagTable : List (List Byte × String) := [')
out.append(',\n'.join(f'  ([{a}], {lean_str(b)})' for a, b in rows) + ']\n')
out.append('end Pemv')
open('/verif/lean/Verif/Model/Tables.lean', 'w').write('\n'.join(out) + '\n')
