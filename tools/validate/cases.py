real={}
a=[30, 12, 18, 5, 30, 23, 3, 21, 35, 10, 25, 7, 5, 16]
t=[94766,26013,5312,40518,34319,14006,40150,41004,45101,4500,49317,64359,44862,73000]
D14=dict(zip(t,a))
real[0]=(0,{}); real[1]=(0,{14006:12}); real[2]=(0,dict(zip([94766, 40518, 41004, 44862, 4120],[15, 12, 13, 6, 21])))
real[3]=(0,D14); real[4]=(1,{}); real[5]=(1,D14); real[6]=(2,D14); real[7]=(3,D14)
real[8]=(3,dict(zip([94766,26013,42009,5312,34319,14006,94611,40150,41004,45101,94113,40673,54101],[28, 10, 12, 7, 30, 13, 3, 10, 28, 30, 11, 5, 7])))
real[9]=(3,dict(zip([94766,26013,42009,5312,40518,34319,14006,40150,41004,45101,4500,49317,64359,44862,73000],[30, 11, 15, 19, 5, 28, 21, 4, 21, 34, 11, 25, 7, 5, 5])))
from plan import *
def J(i): return [int(x) for x in P(i).paths]
def ko(c):
    i=3+c; d={0:{}}
    if c!=3:
        d[1] = dict({4602:2})
        d[2] = dict({6401:3, 4604:13})
        d[3] = dict({1:2, 3:2, 5:7})
        d[4] = dict({2:2, 4:2, 6405:3, 6407:3})
        d[5] = dict({1:5, 2:3, 3:7, 4:2, 5:1, 6401:2})
        d[6] = dict({3:7, 4:2, 5:1, 23: 6, 1:6, 6407:2, 101: 4, 4602: 7})
        d[7] = dict({1:5, 11:3, 21:3, 25:2, 2:4, 4:6, 6:6, 8:3, 10:3, 22:6, 24:1})
        d[8] = dict({1:3, 2:5, 3:7, 4:25, 5:8, 6:12, 7:17, 23:4, 25:3, 24:8, 10:4, 6401:3, 6403:7, 101:8})
        d[9] = dict({2:3, 4602:1, 4:10, 102:2, 6:15, 8:7, 4604:4, 10:1, 12:7, 1:10, 101:8, 3:2, 6401:6, 5:15, 7:1, 103:30, 9:7, 6403:8})
        d[10] = dict({i: i%3 for i in J(i)})
        d[11] = dict({i: i%10 for i in J(i)})
    else:
        d[1] = dict({2:18})
        d[2] = dict({2:36, 4602: 20})
        d[3] = dict({101:18, 1:29, 3:25})
        d[4] = dict({101:18, 1:29, 3:25, 5:15, 2:18})
        d[5] = dict({101:18, 1:29, 3:25, 5:15, 2:36, 4602: 20, 9:12})
        d[6] = dict({101:18, 1:29, 3:25, 5:15, 2:36, 4602: 20, 9:12, 103:15, 10:50, 4606:30})
        d[7] = dict({2:50, 4602: 32, 4:10, 102:5, 1:12, 101:10 })
        d[8] = dict({2:90, 4602: 72, 4:72, 102:45, 4604:10, 101:47,  6401: 35, 3:20})
        d[9] = dict({2:90, 4602:72, 4:72, 102:45, 4604:10, 101:47, 6401: 35, 6403:20, 5:25, 103:30, 3:60, 10:25})
        d[10] = dict({1:29, 2:36, 4602: 20, 9:12, 4606:30, 102:45, 101:47, 6401: 35, 6403:20, 5:25, 103:30, 3:60, 4604:10, 10:25})
        d[11] = dict({2:92, 4602:70, 4:72, 102:46, 101:45, 6401:33, 6403:20, 5:25, 103:28, 3:59, 4604:12, 10:25})
    return {k:(i,v) for k,v in d.items()}
allcases=[('real%d'%k,)+v for k,v in real.items()]
for c in (1,2,3): allcases+=[('ko%d_%d'%(c,k),)+v for k,v in ko(c).items()]
