"""cmp.py OUT EXPECTED: compare two files of little-endian f32 values.  A not-a-number of the model and the undefined
value of wgrib2 (9.999e20 = 0x6258d19a) stand for the same missing point, as in the repository's own tests."""
import sys,struct
a=open(sys.argv[1],'rb').read(); b=open(sys.argv[2],'rb').read()
if len(a)!=len(b): sys.exit('lengths %d and %d'%(len(a),len(b)))
A=struct.unpack('<%dI'%(len(a)//4),a); B=struct.unpack('<%dI'%(len(b)//4),b)
missing=sum(1 for x,y in zip(A,B) if x==0x7fc00000 and y==0x6258d19a)
other=[i for i,(x,y) in enumerate(zip(A,B)) if x!=y and not (x==0x7fc00000 and y==0x6258d19a)]
print('%d values, %d missing in both, %d different'%(len(A),missing,len(other)), other[:5])
sys.exit(1 if other else 0)
