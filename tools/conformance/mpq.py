#!/usr/bin/env python3
"""Minimal MPQ v1 reader (enough for .SC2Replay): mpq.py replay outdir"""
import struct, sys, zlib, bz2, os
ct=[0]*0x500
seed=0x00100001
for i in range(256):
    idx=i
    for _ in range(5):
        seed=(seed*125+3)%0x2AAAAB; a=(seed&0xFFFF)<<16
        seed=(seed*125+3)%0x2AAAAB; b=seed&0xFFFF
        ct[idx]=a|b; idx+=0x100
def h(s,t):
    s1=0x7FED7FED; s2=0xEEEEEEEE
    for c in s.upper().encode():
        v=ct[(t<<8)+c]; s1=(v^(s1+s2))&0xFFFFFFFF; s2=(c+s1+s2+(s2<<5)+3)&0xFFFFFFFF
    return s1
def dec(d,key):
    s1=key; s2=0xEEEEEEEE; out=[]
    for i in range(len(d)//4):
        s2=(s2+ct[0x400+(s1&0xFF)])&0xFFFFFFFF
        v=struct.unpack('<I',d[i*4:i*4+4])[0]; v=(v^(s1+s2))&0xFFFFFFFF
        s1=(((~s1<<0x15)+0x11111111)|(s1>>0x0B))&0xFFFFFFFF
        s2=(v+s2+(s2<<5)+3)&0xFFFFFFFF
        out.append(struct.pack('<I',v))
    return b''.join(out)
def dz(d):
    if d[0]==2: return zlib.decompress(d[1:],15)
    if d[0]==16: return bz2.decompress(d[1:])
    if d[0]==0: return d[1:]
    raise Exception('comp %d'%d[0])
def read(path):
    f=open(path,'rb').read()
    assert f[:4]==b'MPQ\x1b'
    uds,off,uhs=struct.unpack('<III',f[4:16]); user=f[16:16+uhs]
    hs,asz,ver,sh,ht,bt,hn,bn=struct.unpack('<IIHHIIII',f[off+4:off+32])
    H=dec(f[off+ht:off+ht+hn*16],h('(hash table)',3)); B=dec(f[off+bt:off+bt+bn*16],h('(block table)',3))
    hashes=[struct.unpack('<IIHHI',H[i*16:i*16+16]) for i in range(hn)]
    blocks=[struct.unpack('<IIII',B[i*16:i*16+16]) for i in range(bn)]
    ss=512<<sh
    def get(name):
        a,b=h(name,1),h(name,2)
        for e in hashes:
            if e[0]==a and e[1]==b:
                o,az,sz,fl=blocks[e[4]]
                d=f[off+o:off+o+az]
                if not fl&0x80000000: return None
                if az==0: return b''
                if fl&0x01000000:
                    return dz(d) if (fl&0x200 and sz>az) else d
                n=sz//ss+1+(1 if fl&0x04000000 else 0)
                n=(sz+ss-1)//ss
                pos=struct.unpack('<%dI'%(n+1),d[:4*(n+1)])
                out=b''; left=sz
                for i in range(n):
                    s=d[pos[i]:pos[i+1]]; want=min(ss,left)
                    if fl&0x200 and len(s)<want: s=dz(s)
                    out+=s; left-=len(s)
                return out
        return None
    return user,get
if __name__=='__main__':
    user,get=read(sys.argv[1]); od=sys.argv[2]; os.makedirs(od,exist_ok=True)
    open(od+'/user','wb').write(user)
    for n in ['replay.details','replay.initData','replay.tracker.events','replay.game.events','replay.message.events','(listfile)']:
        d=get(n); print(n, None if d is None else len(d))
        if d is not None: open(od+'/'+n,'wb').write(d)
