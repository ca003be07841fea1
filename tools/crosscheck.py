"""Compare the model with the Rust text it cites: bit field patterns, enumeration arms, struct fields.

Usage: crosscheck.py [-v] [REPO]   (default /repo).  Prints every difference not listed as harmless
below (all with -v); exit status 1 if any.
This is a reading aid, not a proof: it only looks for transcription slips.
"""
import re, sys, pathlib
args = [a for a in sys.argv[1:] if a != '-v']
repo = pathlib.Path(args[0] if args else '/repo')
model = pathlib.Path(__file__).resolve().parent.parent / 'lean/Verif/Model'
# Differences looked at and found harmless: (file, line) -> reason.
FPB = 'src/capabilities/flattening_portal_bridge.rs'
HT = 'src/capabilities/hypertransport.rs'
EXP = 'src/capabilities/pci_express.rs'
PCIX = 'src/capabilities/pci_x.rs'
CXL = ('src/extended_capabilities/designated_vendor_specific_extended_capability/'
       'compute_express_link/pcie_dvsec_for_cxl_device.rs')
accepted = {
    (FPB, 295): 'local name `enable`', (FPB, 395): 'local name `enable`',
    (HT, 107): 'local name `t`', (HT, 247): 'shared reader, local name `link_freq`',
    (HT, 255): 'shared reader, local name `link_freq`', (HT, 874): 'unit struct, constant',
    (EXP, 1999): 'unit struct', (EXP, 2352): 'unit struct', (EXP, 2363): 'unit struct',
    (EXP, 2374): 'unit struct', (PCIX, 199): 'local name `version`',
    (PCIX, 598): 'shared reader with line 199', (CXL, 350): 'written with `if`',
    ('src/extended_capabilities/tph_requester.rs', 69): 'local names',
    ('src/extended_capabilities.rs', 282): 'the same pattern as line 238, shared',
    ('src/extended_capabilities.rs', 112): 'variant constructed nowhere, left out',
}
bad = 0
def report(*a):
    global bad
    if a[:2] in accepted and '-v' not in sys.argv: return
    bad += 1
    print(*a)

# --- Lean side -------------------------------------------------------------------------------
items = []   # (file, first, last, kind, name, body)
for f in sorted(model.rglob('*.lean')):
    text = f.read_text()
    for m in re.finditer(r'/--(?P<doc>(?:(?!-/).)*?)-/\s*(?:@\[[^\]]*\]\s*)?(?P<kind>def|structure|inductive)\s+(?P<name>\S+)(?P<body>.*?)(?=\n/--|\n/-!|\nend |\n\n(?:theorem|def|structure|inductive|instance|open|section)|\Z)', text, re.S):
        for c in re.finditer(r'(src/[\w/]+\.rs):([\d, -]+)', m['doc']):
            for a, b in re.findall(r'(\d+)(?:-(\d+))?', c[2]):
                items.append((c[1], int(a), int(b or a), m['kind'], m['name'], m['body'], f.name))

def lean_bits(body):
    seq = []
    for m in re.finditer(r'let \(?(\w+)(?: : \w+\)?)? ← bit\b|let \(?(\w+)(?: : \w+\)?)? ← bits (\d+)|\bskip (\d+)|\b(?:return|pure)\b|runBits', body):
        if m[1]: seq.append((m[1], 1))
        elif m[2]: seq.append((m[2], int(m[3])))
        elif m[4]: seq.append(('_', int(m[4])))
        else: seq.append(None)
    blocks, cur = [], []
    for s in seq + [None]:
        if s is None:
            if cur: blocks.append(norm(cur)); cur = []
        else: cur.append(s)
    return blocks

def norm(seq):
    out = []
    for n, w in seq:
        if n.startswith('_') or n == '()':
            if out and out[-1][0] == '_': out[-1] = ('_', out[-1][1] + w)
            else: out.append(('_', w))
        else: out.append((n, w))
    while out and out[-1][0] == '_': out.pop()
    return out

# --- Rust side -------------------------------------------------------------------------------
nbits = narms = nfields = 0
for f in sorted((repo / 'src').rglob('*.rs')):
    rel = 'src/' + str(f.relative_to(repo / 'src'))
    text = f.read_text()
    cut = text.find('#[cfg(test)]\nmod ')
    if cut >= 0: text = text[:cut] + '\n' * text[cut:].count('\n')
    code = re.sub(r'//[^\n]*', '', text)
    line = lambda p: code.count('\n', 0, p) + 1
    citing = lambda l, kind: sorted([i for i in items if i[0] == rel and i[1] <= l <= i[2] and i[3] in kind], key=lambda i: i[2] - i[1])
    # bit patterns
    for m in re.finditer(r'let (?:Lsb\()?\((?P<pat>[^=;]*?)\)\)?\s*=\s*P(\d+)::<(?P<ty>[^>]*)>', code, re.S):
        nbits += 1
        names = [re.sub(r'^\($', '()', re.sub(r'^(?:U8|Bool)\((\w+)\)$', r'\1', x.strip())) for x in m['pat'].split(',') if x.strip()]
        ws = [int(x) for x in m['ty'].split(',')[1:] if x.strip()]
        l = line(m.start())
        if len(names) != len(ws): report(rel, l, 'unparsed pattern', len(names), len(ws)); continue
        want = norm(list(zip(names, ws)))
        cs = citing(l, ('def',))
        if not cs: report(rel, l, 'bit pattern not cited'); continue
        strip = lambda s: [(n.lstrip('_'), w) for n, w in s]
        if not any(strip(want) == strip(b) for c in cs for b in lean_bits(c[5])):
            report(rel, l, 'bits differ', want, [lean_bits(c[5]) for c in cs[:2]])
    # enumeration arms
    for m in re.finditer(r'match \w+ \{(?P<body>(?:\s*(?:v @ )?(?:0[xb][0-9a-f_]+|\d+) => Self::\w+,)+)', code):
        l = line(m.start())
        arms = [(int(a, 0), b) for a, b in re.findall(r'(0[xb][0-9a-f_]+|\d+) => Self::(\w+),', m['body'])]
        narms += len(arms)
        cs = citing(l, ('def',))
        if not cs: report(rel, l, 'match not cited'); continue
        ok = False
        for c in cs:
            got = [(int(a, 0), b) for a, b in re.findall(r'\| (0[xb][0-9a-f_]+|\d+) => (?:\.ok )?\(?\.(\w+)', c[5])]
            if got[:len(arms)] == arms: ok = True
        if not ok: report(rel, l, 'arms differ', arms, cs[0][4])
    # struct fields
    prim = {'u8': 'U8', 'u16': 'U16', 'u32': 'U32', 'u64': 'U64', 'bool': 'Bool', 'usize': 'Nat'}
    for m in re.finditer(r'pub struct (\w+)(?:<[^>]*>)?\s*\{(?P<body>.*?)\n\}', code, re.S):
        fs = re.findall(r'(?:pub(?:\(\w+\))? )?(\w+):\s*([^,\n]+),', re.sub(r'#\[[^\]]*\]', '', m['body']))
        l = line(m.start())
        cs = [c for c in citing(l + 1, ('structure',)) if c[4].split('.')[-1] == m[1]]
        if not cs: report(rel, l, 'struct not cited', m[1]); continue
        got = re.findall(r'^  (\w+) : (.+?)(?: :=.*)?$', cs[0][5], re.M)
        nfields += len(fs)
        gd = dict(got)
        for n, t in fs:
            if n not in gd: report(rel, l, 'field missing', m[1], n); continue
            if t in prim and gd[n].strip() != prim[t]: report(rel, l, 'type differs', m[1], n, t, gd[n])
        if [n for n, _ in got if n in dict(fs)] != [n for n, _ in fs if n in gd]: report(rel, l, 'field order', m[1])
        for n in gd:
            if n not in dict(fs): report(rel, l, 'extra field', m[1], n)
    # enum variants
    for m in re.finditer(r'pub enum (\w+)(?:<[^>]*>)?\s*\{(?P<body>.*?)\n\}', code, re.S):
        body = re.sub(r'#\[(?:[^\[\]]|\[[^\]]*\])*\]', '', m['body'], flags=re.S)
        depth, vs = 0, []
        for tok in re.finditer(r'[{(]|[})]|\b([A-Z]\w*)\b', body):
            if tok[0] in '{(': depth += 1
            elif tok[0] in '})': depth -= 1
            elif depth == 0 and tok[1]: vs.append(tok[1])
        l = line(m.start())
        cs = [c for c in citing(l + 1, ('inductive',)) if c[4].split('.')[-1] == m[1]]
        if not cs: report(rel, l, 'enum not cited', m[1]); continue
        got = re.findall(r'^  \| (\w+)', cs[0][5], re.M)
        if got != vs: report(rel, l, 'variants differ', m[1], [v for v in vs if v not in got], [v for v in got if v not in vs])
print(nbits, 'bit patterns,', narms, 'arms,', nfields, 'fields compared;', bad, 'differences')
sys.exit(1 if bad else 0)
