import re
s=open('/repo/src/parser.rs').read()
lines=s.split('\n')
out=['''import Verif.Model.Parser

/-! # The unit tests of src/parser.rs (lines 526 to the end), run against the model

Each example is one `#[test]` of the repository, transliterated: the same section numbers (with the position as offset),
and the same expected items.  They are evidence that the model behaves as the code does, not proofs of properties. -/

namespace Grib.Conformance

open Grib Grib.Model

/-- `new_sect_vec_with_dummy_offset_and_errors` (src/parser.rs, tests). -/
def sects (xs : List (Outcome ParseError Nat)) : List Item :=
  xs.zipIdx.map fun p => (fun n => (⟨n, p.2, 0, none⟩ : SectionInfo)) <$> p.1

/-- `new_sect_vec_with_dummy_offset` (src/parser.rs, tests). -/
def nums (xs : List Nat) : List Item := sects (xs.map .ok)

/-- `digest_submessage_iter_item` (src/parser.rs, tests). -/
def digest (x : Submsg SectionInfo) : Submsg Nat :=
  let s := x.sects
  ⟨x.msg, x.sub, ⟨s.s0.offset, s.s1.offset, s.s2.map (·.offset), s.s3.offset, s.s4.offset, s.s5.offset, s.s6.offset,
    s.s7.offset, s.s8.offset⟩⟩

/-- What the by-value stream yields, digested. -/
def items (xs : List Item) : List (Outcome ParseError (Submsg Nat)) := (subStreamItems xs).map (digest <$> ·)

/-- "failed to fill whole buffer" -/
def eof : Outcome ParseError α := .err (.readError .unexpectedEof)
''']
tests=re.findall(r'#\[test\]\s*fn (submessage_\w+)\(\) \{(.*?)\n    \}\n',s,re.S)
def exp(body):
    m=re.search(r'collect::<Vec<_>>\(\),\s*(vec!\[.*?\]|Vec::new\(\)),\s*\);',body,re.S)
    t=m.group(1)
    if t.startswith('Vec::new'): return '[]'
    items=[]
    for it in re.finditer(r'Ok\(\(([^()]*(?:\(\d+\))?[^()]*)\)\)|Err\(ParseError::(\w+)\((.*?)\)\)',t,re.S):
        if it.group(1):
            xs=[x.strip() for x in it.group(1).split(',') if x.strip()]
            xs=[('some '+re.match(r'Some\((\d+)\)',x).group(1)) if x.startswith('Some') else x.replace('None','none') for x in xs]
            assert len(xs)==11,xs
            items.append('.ok ⟨%s, %s, ⟨%s⟩⟩'%(xs[0],xs[1],', '.join(xs[2:])))
        elif it.group(2)=='ReadError': items.append('eof')
        else: items.append('.err (.%s %s)'%(it.group(2)[0].lower()+it.group(2)[1:],it.group(3)))
    return '['+', '.join(items)+']'
n=0
for name,body in tests:
    line=[i for i,l in enumerate(lines,1) if 'fn '+name+'(' in l][0]
    e=exp(body)
    if 'index_stream' in name:
        xs=re.search(r'sect_nums = vec!\[(.*?)\]',body,re.S).group(1); xs=[x.strip() for x in xs.split(',') if x.strip()]
        out.append('/-- src/parser.rs:%d `%s`. -/\nexample : idxStreamItems (nums [%s]) =\n    (%s, (nums [%s]).filterMap fun x => match x with | .ok s => some s | _ => none) := by decide +kernel\n'%(line,name,', '.join(xs),e,', '.join(xs)))
        n+=1; continue
    m=re.search(r'new_sect_vec_with_dummy_offset\(vec!\[(.*?)\]\)',body,re.S)
    if m:
        xs=[x.strip() for x in m.group(1).split(',') if x.strip()]; inp='nums ['+', '.join(xs)+']'
    else:
        m=re.search(r'new_sect_vec_with_dummy_offset_and_errors\(vec!\[(.*?)\]\);',body,re.S)
        its=re.findall(r'Ok\((\d+)\)|(Err)\(',m.group(1))
        inp='sects ['+', '.join('.ok '+a if a else 'eof' for a,b in its)+']'
    out.append('/-- src/parser.rs:%d `%s`. -/\nexample : items (%s) =\n    %s := by decide +kernel\n'%(line,name,inp,e)); n+=1
out.append('end Grib.Conformance')
open('/verif/lean/Verif/Conformance/Parser.lean','w').write('\n'.join(out)+'\n')
print(n,len(tests))
