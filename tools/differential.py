"""Runs the Lean model and tools/reference.py on the same random inputs and compares everything they write.

usage: differential.py SEED COUNT

Compared: the text on standard output with every change of colour, the text on the error output, and whether the
program panicked. The model runs in Lean's interpreter, on a debug build of a 64-bit machine. This looks for slips of
transcription; no theorem rests on it.
"""
import os
import random
import subprocess
import sys
import tempfile

HERE = os.path.dirname(os.path.abspath(__file__))
sys.path.insert(0, HERE)
sys.setrecursionlimit(20000)
import reference as ref

DRIVER = r"""import Verif.Model.Main
open Pemv
def specS (c : ColorSpec) : String := (if c.bold then "b" else "-") ++ (match c.fg with | none => "-" | some .cyan => "C" | some .yellow => "Y" | some .red => "R")
def ser (l : List Ev) : String := Id.run do
  let mut o := ""
  for e in l do
    match e with
    | .text t => o := o ++ String.ofList t
    | .setColor c => o := o ++ "\x01" ++ specS c ++ "\x02"
    | .reset => o := o ++ "\x03"
  return o
def dec (s : String) : List Char := (s.splitOn ",").filterMap (fun x => x.toNat?.map Char.ofNat)
def enc (s : String) : String := String.intercalate "," (s.toList.map (fun c => toString c.toNat))
def ops (k : String) (t : List Char) : CliOps :=
  match k with
  | "tvr" => { tvr := some t } | "ccdIad" => { ccdIad := some t } | "ccdCvr" => { ccdCvr := some t }
  | "tsi" => { tsi := some t } | "cvmResults" => { cvmResults := some t } | "cvmList" => { cvmList := some t }
  | "identify" => { identify := some t } | "autoTlv" => { autoTlv := some t } | "berTlv" => { berTlv := some t }
  | "ingenicoTlv" => { ingenicoTlv := some t } | "serviceCode" => { serviceCode := some t } | _ => {}
partial def loop (h : IO.FS.Stream) (o : IO.FS.Stream) : IO Unit := do
  let l ← h.getLine
  if l.isEmpty then return ()
  match (l.dropEndWhile (· == '\n')).toString.splitOn "|" with
  | [k, s, m, srt] =>
    let r := run .debug64 (ops k (dec s)) (dec m) (srt == "1")
    o.putStrLn (enc (ser r.disp.evs) ++ "|" ++ (match r.stderr with | none => "-" | some t => enc (String.ofList t)) ++ "|" ++ toString r.disp.panicked ++ "|" ++ toString r.diverged)
  | _ => o.putStrLn "BAD"
  loop h o
def main : IO Unit := do loop (← IO.getStdin) (← IO.getStdout)
"""
random.seed(int(sys.argv[1]));N=int(sys.argv[2])
tags=list(ref.TAGS)
ptags=[bytes.fromhex(k) for k in ref.PARSE]
LEN={'5F30':2,'8A':2,'95':5,'9B':2,'9C':1,'9F0D':5,'9F0E':5,'9F0F':5,'9F33':3,'9F34':3,'9F35':1,'9F39':1,'9F40':5}
def rb(n): 
    k=random.random()
    if k<.2: return bytes([random.choice([0,255,0x2a,0x80,1])])*n
    return bytes(random.choice([random.randrange(256),random.randrange(32,127),1<<random.randrange(8),0]) for _ in range(n))
def giad():
    b=bytearray(rb(32));b[0]=15;b[16]=15;b[1]=random.choice([0xA5,0xA6,0xA6,0xA5,0x95,0xA7])
    return bytes(b)
def val(tag,depth):
    k=tag.hex().upper()
    if random.random()<.1: return b'*'*random.randrange(0,5)
    if k=='9F10': return giad() if random.random()<.8 else rb(random.randrange(40))
    if k=='8E': 
        b=random.choice([bytes(8),rb(8),rb(4)+bytes(4)])
        for _ in range(random.randrange(12)): b+=bytes([random.choice([0,0x40])|random.choice([0,1,2,3,4,5,0x1e,0x1f,0x3f,random.randrange(64)]),random.choice([*range(11),random.randrange(256)])])
        return b if random.random()<.95 else b+b'\0'
    if k=='8A': return random.choice([b'%02d'%random.randrange(100),b'%02d'%random.randrange(100),rb(2),b'\xc3\xa9'])
    if k=='5F30': return random.choice([bytes([random.randrange(10),random.randrange(10)*16+random.randrange(10)])]*4+[rb(2)])
    if k=='9F34': return bytes([random.choice([rb(1)[0],0x1e,0x5f,0x42]),random.randrange(12),random.randrange(3)]) if random.random()<.9 else rb(3)
    if k=='9F35': return bytes([random.choice([0x11,0x12,0x13,0x14,0x15,0x16,0x21,0x22,0x23,0x24,0x25,0x26,0x34,0x35,0x36,0x17])])
    if k=='9F39': return bytes([random.choice([0,1,2,3,4,5,6,7,8,9,0x10,0x80,0x81,0x82,0x83,0x90,0x91,0x92,0x95,0x96])])
    if k=='9C': return bytes([random.choice([0,1,2,9,0x20,0x31,0x38,0x40,5,0xff])])
    if k in LEN: return rb(LEN[k] if random.random()<.98 else random.randrange(7))
    if tag[0]&0x20 and random.random()<.85 and depth<5: return berblock(depth+1)
    return rb(random.choice([0,1,2,3,15,16,17,random.randrange(60)]))
def tag():
    k=random.random()
    if k<.45: return random.choice(ptags)
    if k<.8: return random.choice(tags)
    if k<.9: return bytes([random.choice([0x61,0x70,0x77,0xA5,0x6f,0x3c])])
    t=random.randrange(256)
    if t&31==31: return bytes([t])+bytes(random.randrange(128,256) for _ in range(random.randrange(3)))+bytes([random.randrange(128)])
    return bytes([t])
def lenb(n):
    k=random.random()
    if n<128 and k<.9: return bytes([n])
    for c in (1,2,3,4):
        if n<256**c and random.random()<.6: return bytes([0x80|c])+n.to_bytes(c,'big')
    return bytes([0x84])+n.to_bytes(4,'big')
def berblock(depth=0):
    o=b''
    for _ in range(random.choice([0,1,1,2,3,5]) if depth else random.choice([1,1,2,3,6,0])):
        t=tag();v=val(t,depth);o+=t+lenb(len(v))+v
    return o
def mutate(s,alpha):
    s=list(s)
    for _ in range(random.choice([0,0,0,0,0,0,1,2])):
        if not s: break
        i=random.randrange(len(s));k=random.random()
        if k<.4: s[i]=random.choice(alpha)
        elif k<.7: del s[i]
        else: s.insert(i,random.choice(alpha))
    return ''.join(s)
def hexs(b):
    h=b.hex()
    h=random.choice([h,h.upper()])
    if random.random()<.2: h=' '.join(h[i:i+2] for i in range(0,len(h),2))
    return mutate(h,'0123456789abcdefABCDEF zG:é*')
def ings():
    o=''
    for _ in range(random.choice([1,1,2,3,5,0])):
        t=tag();v=val(t,0)
        ty=random.choice('TTTTTTTTxD5')
        th=t.hex().upper()
        if random.random()<.15: th='0'*random.choice([1,2,4])+th
        ln='%02X'%len(v)
        if len(ln)%2: ln='0'+ln
        if random.random()<.1: ln='00'*random.randrange(4)+ln
        if random.random()<.5 and all(c<128 for c in v): d='a'+v.decode()
        else:
            d='h'+v.hex()
            if random.random()<.1: d='h'+random.choice('*#0')*(2*len(v))
        o+=f'{ty}{th}:{ln}:{d}'+random.choice(['\x1c','\x1c',' ',';','T'])
    if random.random()<.5: o=o[:-1]
    return mutate(o,'0123456789ABCDEFTah:* zé')
cases=[]
OPS=['tvr','ccdIad','ccdCvr','tsi','cvmResults','cvmList','identify','autoTlv','berTlv','ingenicoTlv','serviceCode']
for _ in range(N):
    op=random.choice(OPS+['autoTlv','berTlv','ingenicoTlv']*3)
    if op in('tvr','ccdCvr'): s=hexs(rb(random.choice([5]*9+[4,6])))
    elif op=='tsi': s=hexs(rb(random.choice([2]*9+[1,3])))
    elif op=='ccdIad': s=hexs(val(bytes.fromhex('9F10'),0))
    elif op=='cvmResults': s=hexs(val(bytes.fromhex('9F34'),0))
    elif op=='cvmList': s=hexs(val(b'\x8e',0))
    elif op=='identify': s=hexs(tag())
    elif op=='serviceCode': s=random.choice(['',' ',' ','\x1c'])+random.choice(['','','+','-','0','000000'])+str(random.choice([random.randrange(1000),random.randrange(2000),random.randrange(70000)]))+random.choice(['','','\n','\x85','x','٣'])
    elif op=='berTlv': s=hexs(berblock())
    elif op=='ingenicoTlv': s=ings()
    else: s=random.choice([lambda:hexs(berblock()),ings])()
    m=random.choice([['*'],['*'],['*'],['*','#'],[],['0','é'],['F','a']])
    cases.append((op,s,m,random.random()<.4))

def lenmin(n):
    if n<128: return bytes([n])
    k=(n.bit_length()+7)//8
    return bytes([0x80|k])+n.to_bytes(k,'big')
# templates nested about as deep as the indentation can count
for leaf in ('','5a0102','5a00','9b02fc00','8e0a00000000000000004103','9f0d05ffffffffff'):
    for d in range(250,260):
        b=bytes.fromhex(leaf)
        for _ in range(d): b=b'\x70'+lenmin(len(b))+b
        cases.append(('berTlv',b.hex(),['*'],d%2==0))
        cases.append(('autoTlv',b.hex(),['*'],False))
inp='\n'.join('|'.join([op,','.join(str(ord(c)) for c in s),','.join(str(ord(c)) for c in m),'1' if t else '0']) for op,s,m,t in cases)+'\n'
with tempfile.TemporaryDirectory() as d:
    f=os.path.join(d,'Driver.lean')
    open(f,'w').write(DRIVER)
    p=subprocess.run(['lake','env','lean','--run',f],cwd=os.path.join(HERE,'..','lean'),input=inp,capture_output=True,text=True)
if p.stderr: print(p.stderr[:2000])
out=p.stdout.split('\n')[:-1]
assert len(out)==len(cases),(len(out),len(cases))
un=lambda x:''.join(chr(int(c)) for c in x.split(',') if c)
bad=errors=panics=0
for c,l in zip(cases,out):
    a,b,pn,dv=l.split('|')
    got=(un(a),None if b=='-' else un(b),pn=='true')
    exp=ref.run(*c)
    errors+=exp[1] is not None
    panics+=exp[2]
    if got!=exp or dv=='true':
        bad+=1
        if bad<4: print('DIFFERENT',c,exp,got,sep='\n')
print('cases',len(cases),'errors',errors,'panics',panics,'different',bad)
sys.exit(bad>0)
